import Verif.Props.EndToEnd
import Verif.Props.Rate
/-
C86: `geec run` in floating point.
-/
namespace Geec
open Filter
noncomputable section

/-- the bodies of a configuration in Cartesian or geocentric coordinates, and its Cartesian observation points, are used as they are -/
theorem of_plain {S : Type} [Arith S] {g : Geodesy S} {o : Outside S} {lib : HullLib S} {cfg : View S} {ms : List (Mass S)} {ob : Observer S}
    {ps : List (Poly S)} (hms : getMasses g o cfg = .ok ms) (hob : getObserver g o cfg = .ok ob)
    (hcm : ∀ m ∈ ms, m.dataset.crs.name = .CART ∨ m.dataset.crs.name = .ECEF) (hco : ob.dataset.crs.name = .CART)
    (hps : List.Forall₂ (fun (m : Mass S) p => polyhedronOf lib m.dataset.coords.rows = .ok p) ms ps) :
    (RunData.mk ms ms ps ob ob.dataset).Of g o lib cfg := by
  refine ⟨hms, ?_, hps, hob, ?_⟩
  · refine List.forall₂_same.mpr fun m hm => ⟨rfl, rfl, ?_⟩
    rcases hcm m hm with hn | hn <;>
    simp only [runOps, Op.run, Dataset.toLon180, hn, Dataset.toEllipsoidHeight, Dataset.apply, crsId, Dataset.toEcef]
  · simp only [Dataset.toWgs84, hco, Dataset.apply, crsId]

/-- and a run of such a configuration used these bodies -/
theorem plain_polys {S : Type} [Arith S] {g : Geodesy S} {o : Outside S} {lib : HullLib S} {cfg : View S} {ms : List (Mass S)}
    {r : RunData S} (hms : getMasses g o cfg = .ok ms) (hr : r.Of g o lib cfg)
    (hcm : ∀ m ∈ ms, m.dataset.crs.name = .CART ∨ m.dataset.crs.name = .ECEF) :
    List.Forall₂ (fun (m : Mass S) p => polyhedronOf lib m.dataset.coords.rows = .ok p) ms r.polys := by
  have h0 : r.configured = ms := by have := hr.configured; rw [hms] at this; exact (Except.ok.inj this).symm
  have h1 : r.masses = ms := by
    have h3 := hr.masses
    rw [h0] at h3
    generalize r.masses = l at h3
    clear hms h0 hr
    induction h3 with
    | nil => rfl
    | cons h _ ih =>
      rename_i m m' l l' _
      rw [ih fun m hm => hcm m (by simp [hm])]
      obtain ⟨h1, h2, h3⟩ := h
      congr 1
      have : m.dataset = m'.dataset := by
        rcases hcm m (by simp) with hn | hn <;>
        simp only [runOps, Op.run, Dataset.toLon180, hn, Dataset.toEllipsoidHeight, Dataset.apply, crsId, Dataset.toEcef,
          Prod.mk.injEq, true_and] at h3 <;> exact h3
      cases m; cases m'; simp_all
  have := hr.polys
  rw [h1] at this
  exact this

theorem eventually_list {α β : Type} {l : Filter β} {P : α → β → Prop} (xs : List α) (h : ∀ x ∈ xs, ∀ᶠ b in l, P x b) :
    ∀ᶠ b in l, ∀ x ∈ xs, P x b := by
  induction xs with
  | nil => simp
  | cons x xs ih =>
    filter_upwards [h x (by simp), ih fun y hy => h y (by simp [hy])] with b h1 h2
    intro y hy
    rcases List.mem_cons.mp hy with rfl | hy
    · exact h1
    · exact h2 y hy

/-- finitely many rates have one constant -/
theorem rate_list {α : Type} {Q : α → ℝ → Setting → Prop} (mono : ∀ {x a b A}, a ≤ b → Q x a A → Q x b A) (xs : List α)
    (h : ∀ x ∈ xs, ∃ C, ∀ᶠ q in fine, Q x (C * q.2) q.1) : ∃ C, ∀ᶠ q in fine, ∀ x ∈ xs, Q x (C * q.2) q.1 := by
  induction xs with
  | nil => exact ⟨0, by simp⟩
  | cons x xs ih =>
    obtain ⟨C, hC⟩ := h x (by simp)
    obtain ⟨D, hD⟩ := ih fun y hy => h y (by simp [hy])
    refine ⟨max C D, ?_⟩
    filter_upwards [hC, hD, accuracy_pos] with q h1 h2 h0
    intro y hy
    rcases List.mem_cons.mp hy with rfl | hy
    · exact mono (mul_le_mul_of_nonneg_right (le_max_left _ _) h0.le) h1
    · exact mono (mul_le_mul_of_nonneg_right (le_max_right _ _) h0.le) (h2 y hy)

/-- sums of slightly wrong numbers in slightly wrong arithmetic -/
theorem fold_near (gs : List ℝ) : ∀ (s0 : ℝ) {C : ℝ}, 0 ≤ C → ∀ᶠ q in fine, ∀ s gs', |s - s0| ≤ C * q.2 →
    List.Forall₂ (fun a b => |a - b| ≤ C * q.2) gs' gs → |gs'.foldl q.1.add s - gs.foldl (· + ·) s0| ≤ (C + 1) * 2 ^ gs.length * q.2 := by
  induction gs with
  | nil =>
    intro s0 C hC
    filter_upwards [accuracy_pos] with q h0
    intro s gs' hs hg
    cases hg
    simp only [List.foldl_nil, List.length_nil, pow_zero, mul_one]
    nlinarith
  | cons b gs ih =>
    intro s0 C hC
    have k := ih (s0 + b) (C := 2 * C + 1) (by linarith)
    have hsize : 0 < |s0| + |b| + 1 := by positivity
    filter_upwards [k, accurate_on hsize, accuracy_pos, accuracy_le (show 0 < 1 / (C + 1) by positivity)] with q k1 k2 h0 h1
    intro s gs' hs hg
    have hCu : C * q.2 ≤ 1 := by
      rw [le_div_iff₀ (by linarith)] at h1
      nlinarith
    cases hg with
    | cons g1 g2 =>
      rename_i a l
      rw [List.foldl_cons, List.foldl_cons]
      have e1 := abs_sub_le_iff.mp hs
      have e2 := abs_sub_le_iff.mp g1
      have e3 := abs_sub_le_iff.mp (k2.add s a
        (by rw [abs_le]; have := neg_abs_le s0; have := le_abs_self s0; have := abs_nonneg b; constructor <;> linarith)
        (by rw [abs_le]; have := neg_abs_le b; have := le_abs_self b; have := abs_nonneg s0; constructor <;> linarith))
      refine (k1 _ _ ?_ (g2.imp fun x y hxy => hxy.trans (by nlinarith))).trans (le_of_eq ?_)
      · rw [abs_le]
        constructor <;> linarith [e1.1, e1.2, e2.1, e2.2, e3.1, e3.2]
      · rw [List.length_cons, pow_succ]; ring

/-- a component of the accumulated values is the sum of this component -/
theorem accumulate_component {S : Type} [Arith S] (f : Station S → S) (k : V3 S × M3 S → S)
    (hf : ∀ (s : Station S) G T, f { s with G := s.G.add G, T := s.T.add T } = Arith.add (f s) (k (G, T))) (as : List (V3 S × M3 S)) :
    ∀ s, f (accumulate s as) = (as.map k).foldl Arith.add (f s) := by
  induction as with
  | nil => intro s; rfl
  | cons a as ih =>
    obtain ⟨G, T⟩ := a
    intro s
    rw [accumulate, ih, hf]
    rfl

theorem accumulate_coord {S : Type} [Arith S] (as : List (V3 S × M3 S)) : ∀ s : Station S, (accumulate s as).coord = s.coord := by
  induction as with
  | nil => intro s; rfl
  | cons a as ih => intro s; exact ih _

/-- one component of the sum over the bodies, in accurate arithmetic -/
theorem component_near (k : V3 ℝ × M3 ℝ → ℝ) (as : List (V3 ℝ × M3 ℝ)) {C : ℝ} (hC : 1 ≤ C) : ∀ᶠ q in fine,
    ∀ as', List.Forall₂ (fun a b => |k a - k b| ≤ C * q.2) as' as →
      |(as'.map k).foldl q.1.add q.1.zero - (as.map k).foldl realArith.add realArith.zero| ≤ (C + 1) * 2 ^ as.length * q.2 := by
  filter_upwards [fold_near (as.map k) 0 (zero_le_one.trans hC), accurate_on one_pos, accuracy_pos] with q h1 h2 h0
  intro as' has
  have := h1 q.1.zero (as'.map k) (h2.zero.trans (by nlinarith)) (by rw [List.forall₂_map_left_iff, List.forall₂_map_right_iff]; exact has)
  rw [List.length_map] at this
  exact this

/-- no strict comparison is a tie at the point, for any body -/
def DecidedPoint (lib : HullLib ℝ) (ms : List (Mass ℝ)) (p : V3 ℝ) : Prop :=
  ∀ m ∈ ms, ∀ h, lib.convexHull m.dataset.coords.rows = .ok h → h.Decided p

/-- the point is on the line of no edge of any body -/
def OffLinesPoint (lib : HullLib ℝ) (ms : List (Mass ℝ)) (p : V3 ℝ) : Prop :=
  ∀ m ∈ ms, ∀ h, lib.convexHull m.dataset.coords.rows = .ok h → h.OffLines p

/-- the points of a body as they are read -/
def Mass.changed (A : Setting) (m : Mass ℝ) : Mass ℝ :=
  ⟨A.weigh m.density, A.scale m.gravityConstant, ⟨⟨m.dataset.coords.rows.map A.move, m.dataset.coords.intDtype⟩, m.dataset.crs⟩⟩

/-- the observation points as they are read -/
def Observer.changed (A : Setting) (ob : Observer ℝ) : Observer ℝ :=
  { ob with dataset := ⟨⟨ob.dataset.coords.rows.map A.place, ob.dataset.coords.intDtype⟩, ob.dataset.crs⟩ }

theorem Mass.changed_plain (A : Arith ℝ) (m : Mass ℝ) : m.changed (.plain A) = m := by
  unfold Mass.changed
  rw [show (Setting.plain A).move = id from rfl, List.map_id]
  rfl

theorem Observer.changed_plain (A : Arith ℝ) (ob : Observer ℝ) : ob.changed (.plain A) = ob := by
  unfold Observer.changed
  rw [show (Setting.plain A).place = id from rfl, List.map_id]

/-- the second hull library finds the same facets in the changed points of the bodies as the first in the points -/
def HullLib.Follows (A : Setting) (lib lib' : HullLib ℝ) (ms : List (Mass ℝ)) : Prop :=
  ∀ m ∈ ms, ∀ h, lib.convexHull m.dataset.coords.rows = .ok h → lib'.convexHull (m.dataset.coords.rows.map A.move) = .ok (h.moved A)

theorem HullLib.follows_plain (A : Arith ℝ) (lib : HullLib ℝ) (ms : List (Mass ℝ)) : HullLib.Follows (.plain A) lib lib ms := by
  intro m _ h hh
  rw [Hull.moved_plain, show (Setting.plain A).move = id from rfl, List.map_id]
  exact hh

/-- the answers of all bodies in accurate arithmetic -/
theorem answers_near {lib : HullLib ℝ} (hlib : lib.Honest) {s : V3 ℝ} {ρ Gc : ℝ} {gr : Bool} {ms : List (Mass ℝ)} {ps : List (Poly ℝ)}
    (hps : List.Forall₂ (fun (m : Mass ℝ) p => polyhedronOf lib m.dataset.coords.rows = .ok p) ms ps)
    (hd : DecidedPoint lib ms s) {off : Prop} (ho : off → OffLinesPoint lib ms s) {as : List (V3 ℝ × M3 ℝ)}
    (has : ps.map (Call.mk s ρ Gc gr).onNew = as.map .ok) :
    ∃ C, ∀ᶠ q in fine, ∀ lib', lib.Follows q.1 lib' ms →
      ∀ ps', List.Forall₂ (fun (m : Mass ℝ) p => @polyhedronOf ℝ q.1 lib' (m.dataset.coords.rows.map q.1.move) = .ok p) ms ps' →
      ∃ as', ps'.map (@Call.onNew ℝ q.1 · (Call.mk (q.1.place s) (q.1.weigh ρ) (q.1.scale Gc) gr)) = as'.map .ok ∧
        List.Forall₂ (fun a b => NearV (C * q.2) a.1 b.1 ∧ (off → NearM (C * q.2) a.2 b.2)) as' as := by
  induction hps generalizing as with
  | nil =>
    cases as with
    | nil =>
      refine ⟨0, Eventually.of_forall fun q lib' _ ps' hps' => ⟨[], ?_, .nil⟩⟩
      cases hps'
      rfl
    | cons a as => cases has
  | cons h1 _ ih =>
    rename_i m p ms ps _
    cases as with
    | nil => cases has
    | cons a as =>
      obtain ⟨G, T⟩ := a
      simp only [List.map_cons, List.cons.injEq] at has
      obtain ⟨h, hh, hp⟩ := except_bind_ok h1
      have hH := (hlib _ _ hh).2
      have hdec := hd m (by simp) h hh
      obtain ⟨C, hC⟩ := onNew_rate hH hp hdec has.1
      obtain ⟨D, hD⟩ := ih (fun m hm => hd m (by simp [hm])) (fun h m hm => ho h m (by simp [hm])) has.2
      refine ⟨max C D, ?_⟩
      filter_upwards [hC, hD, accuracy_pos] with u k1 k2 h0
      have c1 : C * u.2 ≤ max C D * u.2 := mul_le_mul_of_nonneg_right (le_max_left _ _) h0.le
      have c2 : D * u.2 ≤ max C D * u.2 := mul_le_mul_of_nonneg_right (le_max_right _ _) h0.le
      intro lib' hl ps' hps'
      cases hps' with
      | cons hq hqs =>
        rename_i q qs
        obtain ⟨p', G', T', j1, j2, j3, j4⟩ := k1
        obtain ⟨as', l1, l2⟩ := k2 lib' (fun m hm => hl m (by simp [hm])) qs hqs
        have hq' : q = p' := by
          simp only [polyhedronOf, hl m (by simp) h hh] at hq
          have hq : @mkPoly ℝ u.1 (h.moved u.1) (lib'.inHull (m.dataset.coords.rows.map u.1.move)) = .ok q := hq
          rw [j1] at hq
          exact (Except.ok.inj hq).symm
        subst hq'
        exact ⟨(G', T') :: as', by simp only [List.map_cons, j2, l1], .cons ⟨j3.mono c1, fun hf => (j4 (ho hf m (by simp) h hh)).mono c1⟩ (l2.imp fun a b hab => ⟨hab.1.mono c2, fun hf => (hab.2 hf).mono c2⟩)⟩

/-- all bodies are built in accurate arithmetic -/
theorem polys_near {lib : HullLib ℝ} (hlib : lib.Honest) {ms : List (Mass ℝ)} {ps : List (Poly ℝ)}
    (hps : List.Forall₂ (fun (m : Mass ℝ) p => polyhedronOf lib m.dataset.coords.rows = .ok p) ms ps) :
    ∀ᶠ A : Setting in precise, ∀ lib', lib.Follows A lib' ms →
      ∃ ps', List.Forall₂ (fun (m : Mass ℝ) p => @polyhedronOf ℝ A lib' (m.dataset.coords.rows.map A.move) = .ok p) ms ps' := by
  induction hps with
  | nil => exact Eventually.of_forall fun A _ _ => ⟨[], .nil⟩
  | cons h1 _ ih =>
    rename_i m p ms ps _
    obtain ⟨h, hh, hp⟩ := except_bind_ok h1
    filter_upwards [mkPoly_at (hlib _ _ hh).2 hp, ih] with A k1 k2
    intro lib' hl
    obtain ⟨ps', k2⟩ := k2 lib' fun m hm => hl m (by simp [hm])
    exact ⟨polyAt A h p :: ps', .cons (by simp only [polyhedronOf, hl m (by simp) h hh]; exact k1 _) k2⟩

/-- the line of one point in accurate arithmetic -/
theorem line_near (p : V3 ℝ) (as : List (V3 ℝ × M3 ℝ)) (off : Prop) {C : ℝ} (hC : 1 ≤ C) : ∀ᶠ q in fine, ∀ as',
    List.Forall₂ (fun a b => NearV (C * q.2) a.1 b.1 ∧ (off → NearM (C * q.2) a.2 b.2)) as' as →
    (@accumulate ℝ q.1 (@Station.new ℝ q.1 (q.1.place p)) as').coord = q.1.place p ∧
    NearV ((C + 1) * 2 ^ as.length * q.2) (@accumulate ℝ q.1 (@Station.new ℝ q.1 (q.1.place p)) as').G (accumulate (Station.new p) as).G ∧
    (off → NearM ((C + 1) * 2 ^ as.length * q.2) (@accumulate ℝ q.1 (@Station.new ℝ q.1 (q.1.place p)) as').T (accumulate (Station.new p) as).T) := by
  have one : ∀ (f : Station ℝ → ℝ) (k : V3 ℝ × M3 ℝ → ℝ), (∀ (A : Arith ℝ) (s : Station ℝ) G T,
        f ⟨s.coord, @V3.add ℝ A s.G G, @M3.add ℝ A s.T T⟩ = A.add (f s) (k (G, T))) → (∀ (A : Arith ℝ) p, f (@Station.new ℝ A p) = A.zero) →
      ∀ᶠ q in fine, ∀ as', List.Forall₂ (fun a b => |k a - k b| ≤ C * q.2) as' as →
        |f (@accumulate ℝ q.1 (@Station.new ℝ q.1 (q.1.place p)) as') - f (accumulate (Station.new p) as)| ≤ (C + 1) * 2 ^ as.length * q.2 := by
    intro f k hf h0
    filter_upwards [component_near k as hC] with q hA
    intro as' has
    rw [@accumulate_component ℝ q.1 f k (hf q.1), @accumulate_component ℝ realArith f k (hf realArith), h0, h0]
    exact hA as' has
  filter_upwards [one (·.G.x) (·.1.x) (fun _ _ _ _ => rfl) (fun _ _ => rfl), one (·.G.y) (·.1.y) (fun _ _ _ _ => rfl) (fun _ _ => rfl),
    one (·.G.z) (·.1.z) (fun _ _ _ _ => rfl) (fun _ _ => rfl), one (·.T.r0.x) (·.2.r0.x) (fun _ _ _ _ => rfl) (fun _ _ => rfl),
    one (·.T.r0.y) (·.2.r0.y) (fun _ _ _ _ => rfl) (fun _ _ => rfl), one (·.T.r0.z) (·.2.r0.z) (fun _ _ _ _ => rfl) (fun _ _ => rfl),
    one (·.T.r1.x) (·.2.r1.x) (fun _ _ _ _ => rfl) (fun _ _ => rfl), one (·.T.r1.y) (·.2.r1.y) (fun _ _ _ _ => rfl) (fun _ _ => rfl),
    one (·.T.r1.z) (·.2.r1.z) (fun _ _ _ _ => rfl) (fun _ _ => rfl), one (·.T.r2.x) (·.2.r2.x) (fun _ _ _ _ => rfl) (fun _ _ => rfl),
    one (·.T.r2.y) (·.2.r2.y) (fun _ _ _ _ => rfl) (fun _ _ => rfl), one (·.T.r2.z) (·.2.r2.z) (fun _ _ _ _ => rfl) (fun _ _ => rfl)]
    with q g1 g2 g3 h1 h2 h3 h4 h5 h6 h7 h8 h9
  intro as' has
  refine ⟨@accumulate_coord ℝ q.1 _ _, ⟨?_, ?_, ?_⟩, fun ho => ⟨⟨?_, ?_, ?_⟩, ⟨?_, ?_, ?_⟩, ⟨?_, ?_, ?_⟩⟩⟩
  · exact g1 as' (has.imp fun a b h => h.1.1)
  · exact g2 as' (has.imp fun a b h => h.1.2.1)
  · exact g3 as' (has.imp fun a b h => h.1.2.2)
  · exact h1 as' (has.imp fun a b h => (h.2 ho).1.1)
  · exact h2 as' (has.imp fun a b h => (h.2 ho).1.2.1)
  · exact h3 as' (has.imp fun a b h => (h.2 ho).1.2.2)
  · exact h4 as' (has.imp fun a b h => (h.2 ho).2.1.1)
  · exact h5 as' (has.imp fun a b h => (h.2 ho).2.1.2.1)
  · exact h6 as' (has.imp fun a b h => (h.2 ho).2.1.2.2)
  · exact h7 as' (has.imp fun a b h => (h.2 ho).2.2.1)
  · exact h8 as' (has.imp fun a b h => (h.2 ho).2.2.2.1)
  · exact h9 as' (has.imp fun a b h => (h.2 ho).2.2.2.2)

/-- the rows of two tables agree to `ε`: the coordinates of the second are changed, the first six columns agree to `ε`, and if `off`, all do -/
def RowNear (A : Setting) (ε : ℝ) (off : Prop) (row row0 : List ℝ) : Prop :=
  row.length = 12 ∧ row0.length = 12 ∧ (∃ p, row0.take 3 = [p.x, p.y, p.z] ∧ row.take 3 = [(A.place p).x, (A.place p).y, (A.place p).z]) ∧
  List.Forall₂ (fun a b => |a - b| ≤ ε) (row.take 6) (row0.take 6) ∧ (off → List.Forall₂ (fun a b => |a - b| ≤ ε) row row0)

theorem RowNear.mono {A : Setting} {ε δ : ℝ} {off : Prop} {r r0 : List ℝ} (h : RowNear A ε off r r0) (hle : ε ≤ δ) : RowNear A δ off r r0 :=
  ⟨h.1, h.2.1, h.2.2.1, h.2.2.2.1.imp fun _ _ h => h.trans hle, fun ho => (h.2.2.2.2 ho).imp fun _ _ h => h.trans hle⟩

/-- with exact inputs the coordinates are the same -/
theorem RowNear.coordinates {A : Arith ℝ} {ε : ℝ} {off : Prop} {r r0 : List ℝ} (h : RowNear (.plain A) ε off r r0) : r.take 3 = r0.take 3 := by
  obtain ⟨p, h1, h2⟩ := h.2.2.1
  rw [h1, h2]
  rfl

theorem rowNear_line {A : Setting} {ε : ℝ} {off : Prop} {s s0 : Station ℝ} (h1 : s.coord = A.place s0.coord) (h0 : NearV ε (A.place s0.coord) s0.coord)
    (h2 : NearV ε s.G s0.G) (h3 : off → NearM ε s.T s0.T) : RowNear A ε off (@lineOf ℝ s) (@lineOf ℝ s0) := by
  refine ⟨rfl, rfl, ⟨s0.coord, ?_, ?_⟩, ?_, ?_⟩
  · simp only [lineOf, List.take]
  · simp only [lineOf, List.take, h1]
  · simp only [lineOf, List.take, h1]
    exact .cons h0.1 (.cons h0.2.1 (.cons h0.2.2 (.cons h2.1 (.cons h2.2.1 (.cons h2.2.2 .nil)))))
  · intro ho
    obtain ⟨⟨a1, a2, a3⟩, ⟨_, a4, a5⟩, ⟨_, _, a6⟩⟩ := h3 ho
    simp only [lineOf, h1]
    exact .cons h0.1 (.cons h0.2.1 (.cons h0.2.2 (.cons h2.1 (.cons h2.2.1 (.cons h2.2.2 (.cons a1 (.cons a2 (.cons a3 (.cons a4
      (.cons a5 (.cons a6 .nil)))))))))))

theorem forall₂_of_get {α β : Type} {R : α → β → Prop} {l : List α} {m : List β} (hlen : l.length = m.length)
    (h : ∀ (i : Nat) a b, l[i]? = some a → m[i]? = some b → R a b) : List.Forall₂ R l m := by
  induction l generalizing m with
  | nil => cases m with
    | nil => exact .nil
    | cons b m => simp at hlen
  | cons a l ih => cases m with
    | nil => simp at hlen
    | cons b m => exact .cons (h 0 a b rfl rfl) (ih (by simpa using hlen) fun i a b ha hb => h (i + 1) a b (by simpa using ha) (by simpa using hb))

/-- the run in accurate arithmetic, from slightly wrong inputs, in one statement -/
theorem run_rate (g : Geodesy ℝ) (o : Outside ℝ) (lib : HullLib ℝ) (hlib : lib.Honest) (cfg : View ℝ) (gr : Bool) (t : Table ℝ)
    (h : runTable g o lib cfg gr = .ok t) (ms : List (Mass ℝ)) (hms : getMasses g o cfg = .ok ms) (ob : Observer ℝ)
    (hob : getObserver g o cfg = .ok ob) (hcm : ∀ m ∈ ms, m.dataset.crs.name = .CART ∨ m.dataset.crs.name = .ECEF)
    (hco : ob.dataset.crs.name = .CART) (hd : ∀ p ∈ ob.dataset.coords.rows, DecidedPoint lib ms p) (off : Prop)
    (ho : off → ∀ p ∈ ob.dataset.coords.rows, OffLinesPoint lib ms p) :
    ∃ C, ∀ᶠ q in fine, ∀ g' o' lib' cfg', configShow cfg' = .ok () → @getMasses ℝ q.1 g' o' cfg' = .ok (ms.map (·.changed q.1)) →
      @getObserver ℝ q.1 g' o' cfg' = .ok (ob.changed q.1) → lib.Follows q.1 lib' ms →
      ∃ t', @runTable ℝ q.1 g' o' lib' cfg' gr = .ok t' ∧ t'.columns = t.columns ∧ List.Forall₂ (RowNear q.1 (C * q.2) off) t'.rows t.rows := by
  obtain ⟨r, first, rest, hr, hfirst, hne, hcol, hrows⟩ := runTable_ok h
  obtain ⟨ps, hps, rfl⟩ : ∃ ps, List.Forall₂ (fun (m : Mass ℝ) p => polyhedronOf lib m.dataset.coords.rows = .ok p) ms ps ∧
      r = ⟨ms, ms, ps, ob, ob.dataset⟩ :=
    ⟨r.polys, plain_polys hms hr hcm, hr.unique (of_plain hms hob hcm hco (plain_polys hms hr hcm))⟩
  obtain ⟨first', rest', hf', hlines⟩ := C37_first_density g o lib cfg gr t _ h hr
  dsimp only at hfirst hf' hlines hne hcol hrows
  obtain ⟨rfl, rfl⟩ : first' = first ∧ rest' = rest := by rw [hfirst] at hf'; exact ⟨(List.cons.inj hf').1.symm, (List.cons.inj hf').2.symm⟩
  obtain ⟨C, key⟩ := rate_list (xs := ob.dataset.coords.rows) (Q := fun p ε A => ∀ lib', lib.Follows A lib' ms → ∀ ps',
      List.Forall₂ (fun (m : Mass ℝ) p => @polyhedronOf ℝ A lib' (m.dataset.coords.rows.map A.move) = .ok p) ms ps' →
      ∃ as', ps'.map (@Call.onNew ℝ A · (Call.mk (A.place p) (A.weigh first'.density) (A.scale first'.gravityConstant) gr)) = as'.map .ok ∧
        ∀ as, ps.map (@Call.onNew ℝ realArith · (Call.mk p first'.density first'.gravityConstant gr)) = as.map .ok →
          RowNear A ε off (lineOf (@accumulate ℝ A (@Station.new ℝ A (A.place p)) as')) (lineOf (@accumulate ℝ realArith (@Station.new ℝ realArith p) as))) (by
      intro x a b A hab hQ lib' hl ps' hps'
      obtain ⟨as', h1, h2⟩ := hQ lib' hl ps' hps'
      exact ⟨as', h1, fun as has => (h2 as has).mono hab⟩) (by
    intro p hp
    obtain ⟨i, hi⟩ := List.getElem?_of_mem hp
    obtain ⟨as, has, -⟩ := hlines i p hi
    obtain ⟨D, hD⟩ := answers_near hlib hps (hd p hp) (fun h => ho h p hp) has
    have hmax : 1 ≤ max 1 D := le_max_left _ _
    obtain ⟨M, hM, hpM⟩ := exists_size p
    refine ⟨(max 1 D + 1) * 2 ^ as.length, ?_⟩
    filter_upwards [line_near p as off hmax, hD, accuracy_pos, accurate_on hM] with q k1 k2 h0 k3
    intro lib' hl ps' hps'
    obtain ⟨as', j1, j2⟩ := k2 lib' hl ps' hps'
    refine ⟨as', j1, fun bs hbs => ?_⟩
    obtain rfl : as = bs := List.map_injective_iff.mpr (fun _ _ h => Except.ok.inj h) (has.symm.trans hbs)
    have c : D * q.2 ≤ max 1 D * q.2 := mul_le_mul_of_nonneg_right (le_max_right _ _) h0.le
    obtain ⟨l1, l2, l3⟩ := k1 as' (j2.imp fun a b hab => ⟨hab.1.mono c, fun hf => (hab.2 hf).mono c⟩)
    have hc : (@accumulate ℝ realArith (@Station.new ℝ realArith p) as).coord = p := @accumulate_coord ℝ realArith _ _
    refine rowNear_line (by rw [l1, hc]) ?_ l2 l3
    rw [hc]
    refine (k3.place p hpM).mono ?_
    have h2 : (1 : ℝ) ≤ 2 ^ as.length := one_le_pow₀ (by norm_num)
    have h3 : 1 ≤ (max 1 D + 1) * 2 ^ as.length := by nlinarith
    nlinarith)
  refine ⟨C, ?_⟩
  filter_upwards [eventually_fst.mpr (polys_near hlib hps), key] with u hA k2
  intro g' o' lib' cfg' hshow hmsA hobA hl
  obtain ⟨ps', hps'⟩ := hA lib' hl
  have hrA := @of_plain ℝ u.1 g' o' lib' cfg' _ _ ps' hmsA hobA (by
    intro m hm
    obtain ⟨m0, hm0, rfl⟩ := List.mem_map.mp hm
    exact hcm m0 hm0) hco (List.forall₂_map_left_iff.mpr hps')
  obtain ⟨t', ht'⟩ := @run_returns_polys ℝ u.1 g' o' lib' cfg' _ gr hrA hshow (by rw [hfirst]; simp) (by
    show ob.dataset.coords.rows.map _ ≠ []
    exact fun h0 => hne (List.map_eq_nil_iff.mp h0)) (by
    intro f hf q hq p hp
    obtain rfl : first'.changed u.1 = f := by
      dsimp only at hf; rw [hfirst] at hf; exact Option.some.inj hf
    obtain ⟨p, hp', rfl⟩ := List.mem_map.mp hp
    obtain ⟨as', j1, -⟩ := k2 p hp' lib' hl ps' hps'
    have hm : @Call.onNew ℝ u.1 q (Call.mk (u.1.place p) (u.1.weigh first'.density) (u.1.scale first'.gravityConstant) gr) ∈ as'.map .ok := by
      rw [← j1]; exact List.mem_map_of_mem hq
    obtain ⟨a, -, ha⟩ := List.mem_map.mp hm
    exact ⟨a, ha.symm⟩)
  obtain ⟨rA, fA, restA, hrA', hfA, -, hcolA, hrowsA⟩ := @runTable_ok ℝ u.1 _ _ _ _ _ _ ht'
  obtain rfl := @RunData.Of.unique ℝ u.1 _ _ _ _ _ _ hrA' hrA
  obtain ⟨fA', restA', hfA', hlinesA⟩ := @C37_first_density ℝ u.1 g' o' lib' cfg' gr t' _ ht' hrA
  dsimp only at hfA' hlinesA hcolA hrowsA
  obtain rfl : fA' = first'.changed u.1 := by rw [hfirst] at hfA'; exact (List.cons.inj hfA').1.symm
  refine ⟨t', ht', by rw [hcol, hcolA]; rfl, ?_⟩
  have hlenA : ob.dataset.coords.rows.length = t'.rows.length := (List.length_map _).symm.trans hrowsA.length_eq
  refine forall₂_of_get (hlenA.symm.trans hrows.length_eq) fun i row row0 hrow hrow0 => ?_
  have hi : i < ob.dataset.coords.rows.length := by
    rw [hrows.length_eq]; exact (List.getElem?_eq_some_iff.mp hrow0).1
  have hi' : (ob.changed u.1).dataset.coords.rows[i]? = some (u.1.place ob.dataset.coords.rows[i]) := by
    show (ob.dataset.coords.rows.map u.1.place)[i]? = _
    rw [List.getElem?_map, List.getElem?_eq_getElem hi, Option.map_some]
  obtain ⟨as, has, e0⟩ := hlines i _ (List.getElem?_eq_getElem hi)
  obtain ⟨bs, hbs, e1⟩ := hlinesA i _ hi'
  obtain ⟨as', j1, j2⟩ := k2 _ (List.getElem_mem hi) lib' hl ps' hps'
  obtain rfl : as' = bs := List.map_injective_iff.mpr (fun _ _ h => Except.ok.inj h) (j1.symm.trans hbs)
  rw [hrow0] at e0
  rw [hrow] at e1
  rw [Option.some.inj e0, Option.some.inj e1]
  exact j2 as has

theorem run_shown {g : Geodesy ℝ} {o : Outside ℝ} {lib : HullLib ℝ} {cfg : View ℝ} {gr : Bool} {t : Table ℝ} (h : runTable g o lib cfg gr = .ok t) :
    configShow cfg = .ok () := by
  rcases hc : configShow cfg with e | ⟨⟨⟩⟩
  · rw [runTable, hc] at h; cases h
  · rfl

/-- and for a given error, from exact inputs -/
theorem run_near (g : Geodesy ℝ) (o : Outside ℝ) (lib : HullLib ℝ) (hlib : lib.Honest) (cfg : View ℝ) (gr : Bool) (t : Table ℝ)
    (h : runTable g o lib cfg gr = .ok t) (ms : List (Mass ℝ)) (hms : getMasses g o cfg = .ok ms) (ob : Observer ℝ)
    (hob : getObserver g o cfg = .ok ob) (hcm : ∀ m ∈ ms, m.dataset.crs.name = .CART ∨ m.dataset.crs.name = .ECEF)
    (hco : ob.dataset.crs.name = .CART) (hd : ∀ p ∈ ob.dataset.coords.rows, DecidedPoint lib ms p) (off : Prop)
    (ho : off → ∀ p ∈ ob.dataset.coords.rows, OffLinesPoint lib ms p) {ε : ℝ} (hε : 0 < ε) :
    ∃ u, 0 < u ∧ ∀ A : Arith ℝ, Accurate A u → @getMasses ℝ A g o cfg = .ok ms → @getObserver ℝ A g o cfg = .ok ob →
      ∃ t', @runTable ℝ A g o lib cfg gr = .ok t' ∧ t'.columns = t.columns ∧ List.Forall₂ (RowNear (.plain A) ε off) t'.rows t.rows := by
  obtain ⟨C, hC⟩ := run_rate g o lib hlib cfg gr t h ms hms ob hob hcm hco hd off ho
  have key : ∀ᶠ A : Setting in precise, @getMasses ℝ A g o cfg = .ok (ms.map (·.changed A)) → @getObserver ℝ A g o cfg = .ok (ob.changed A) →
      lib.Follows A lib ms → ∃ t', @runTable ℝ A g o lib cfg gr = .ok t' ∧ t'.columns = t.columns ∧ List.Forall₂ (RowNear A ε off) t'.rows t.rows := by
    refine eventually_fst.mp ?_
    filter_upwards [hC, accuracy_pos, accuracy_le (show 0 < ε / (|C| + 1) by positivity)] with q h1 h0 h2
    intro k1 k2 k3
    obtain ⟨t', j1, j2, j3⟩ := h1 g o lib cfg (run_shown h) k1 k2 k3
    refine ⟨t', j1, j2, j3.imp fun _ _ hr => hr.mono ?_⟩
    rw [le_div_iff₀ (by positivity)] at h2
    nlinarith [le_abs_self C]
  obtain ⟨u, hu, k⟩ := eventually_plain key
  refine ⟨u, hu, fun A hA k1 k2 => k A hA ?_ ?_ (HullLib.follows_plain A lib ms)⟩
  · rw [show ms.map (·.changed (.plain A)) = ms by simp only [Mass.changed_plain, List.map_id']]; exact k1
  · rw [Observer.changed_plain]; exact k2

/-! ### Reading the configuration -/

/-- a section whose coordinates are given as a list of points or in a file (not as a grid), in the coordinate system `n` -/
structure PlainSection (w : View ℝ) (n : CRSName) : Prop where
  points : (∃ v vs, (w.at "points").first = .ok (.list (v :: vs))) ∨
    (w.at "points").first = .ok .null ∧ ∃ s, s ≠ "" ∧ (w.at "file_path").first = .ok (.str s)
  ref : readRef (w.at "crs") = .ok n

/-- a configuration with Cartesian or geocentric bodies, all of them plain, and numbers as densities and constants -/
structure PlainBodies (cfg : View ℝ) (l : List (View ℝ)) : Prop where
  bodies : (cfg.at "masses").iter = .ok l
  body : ∀ w ∈ l, (PlainSection w .CART ∨ PlainSection w .ECEF) ∧ (∃ i x, (w.at "density").first = .ok (.num i x)) ∧
    ∃ i x, (w.at "gravity_constant").first = .ok (.num i x)

/-- and with Cartesian observation points, also plain -/
structure PlainConfig (cfg : View ℝ) (l : List (View ℝ)) : Prop extends PlainBodies cfg l where
  observers : PlainSection (cfg.at "observers") .CART

theorem readCoords_plain {w : View ℝ} {n : CRSName} (hw : PlainSection w n) (o : Outside ℝ) (A B : Arith ℝ) :
    @readCoords ℝ A o w = @readCoords ℝ B o w := by
  rcases hw.points with ⟨v, vs, h⟩ | ⟨h, s, hs, h'⟩
  · simp only [readCoords, View.truthy, h, Bind.bind, Except.bind, Pure.pure, Except.pure, Val.truthy, List.isEmpty_cons, Bool.not_false, if_true]
  · simp only [readCoords, View.truthy, h, h', Bind.bind, Except.bind, Pure.pure, Except.pure, Val.truthy, Bool.false_eq_true, if_false,
      ne_eq, hs, not_false_eq_true, decide_true, if_true]

theorem getCrs_of_ref {w : View ℝ} {n : CRSName} (h : readRef w = .ok n) (hn : n = .CART ∨ n = .ECEF) (g : Geodesy ℝ) (A : Arith ℝ) :
    @getCrs ℝ A g w = .ok ⟨n, none, none, .ELLPS⟩ := by
  rcases hn with rfl | rfl <;> simp only [getCrs, h, Bind.bind, Except.bind] <;> rfl

theorem getDataset_plain {w : View ℝ} {n : CRSName} (hw : PlainSection w n) (hn : n = .CART ∨ n = .ECEF) (g : Geodesy ℝ) (o : Outside ℝ) (A : Arith ℝ) :
    @getDataset ℝ A g o w = @getDataset ℝ realArith g o w ∧ ∀ d, @getDataset ℝ realArith g o w = .ok d → d.crs.name = n := by
  have e := readCoords_plain hw o A realArith
  have c := getCrs_of_ref hw.ref hn g
  constructor
  · simp only [getDataset, e, c]
  · intro d hd
    simp only [getDataset, c] at hd
    obtain ⟨x, -, hd⟩ := except_bind_ok hd
    cases hd
    rfl

/-- reading plain bodies does not depend on the arithmetic -/
theorem plain_bodies {cfg : View ℝ} {l : List (View ℝ)} (h : PlainBodies cfg l) (g : Geodesy ℝ) (o : Outside ℝ) (A : Arith ℝ) :
    @getMasses ℝ A g o cfg = @getMasses ℝ realArith g o cfg ∧
    ∀ ms, @getMasses ℝ realArith g o cfg = .ok ms → ∀ m ∈ ms, m.dataset.crs.name = .CART ∨ m.dataset.crs.name = .ECEF := by
  have hds : ∀ w ∈ l, @getDataset ℝ A g o w = @getDataset ℝ realArith g o w ∧ ∀ d, @getDataset ℝ realArith g o w = .ok d → d.crs.name = .CART ∨ d.crs.name = .ECEF := by
    intro w hw
    rcases (h.body w hw).1 with h1 | h1
    · exact ⟨(getDataset_plain h1 (.inl rfl) g o A).1, fun d hd => .inl ((getDataset_plain h1 (.inl rfl) g o A).2 d hd)⟩
    · exact ⟨(getDataset_plain h1 (.inr rfl) g o A).1, fun d hd => .inr ((getDataset_plain h1 (.inr rfl) g o A).2 d hd)⟩
  have hmass : ∀ w ∈ l, @getMass ℝ A g o w = @getMass ℝ realArith g o w ∧ ∀ m, @getMass ℝ realArith g o w = .ok m → m.dataset.crs.name = .CART ∨ m.dataset.crs.name = .ECEF := by
    intro w hw
    obtain ⟨-, ⟨i, x, h1⟩, j, y, h2⟩ := h.body w hw
    constructor
    · simp only [getMass, (hds w hw).1, View.getNum, h1, h2]
      rfl
    · intro m hm
      simp only [getMass, View.getNum, h1, h2] at hm
      obtain ⟨d, hd, hm⟩ := except_bind_ok hm
      cases hm
      exact (hds w hw).2 d hd
  refine ⟨?_, ?_⟩
  · simp only [getMasses, h.bodies, Bind.bind, Except.bind]
    have : ∀ l' : List (View ℝ), (∀ w ∈ l', @getMass ℝ A g o w = @getMass ℝ realArith g o w) → l'.mapM (@getMass ℝ A g o) = l'.mapM (@getMass ℝ realArith g o) := by
      intro l'
      induction l' with
      | nil => intro _; rfl
      | cons w l' ih => intro hl; rw [List.mapM_cons, List.mapM_cons, hl w (by simp), ih fun w hw => hl w (by simp [hw])]
    exact this l fun w hw => (hmass w hw).1
  · intro ms hms m hm
    simp only [getMasses, h.bodies, Bind.bind, Except.bind] at hms
    obtain ⟨k, hk⟩ := List.getElem?_of_mem hm
    obtain ⟨w, hw, hwm⟩ := forall₂_get (mapM_ok.mp hms).flip hk
    exact (hmass w (List.mem_of_getElem? hw)).2 m hwm

/-- reading a plain configuration does not depend on the arithmetic -/
theorem plain_reading {cfg : View ℝ} {l : List (View ℝ)} (h : PlainConfig cfg l) (g : Geodesy ℝ) (o : Outside ℝ) (A : Arith ℝ) :
    @getMasses ℝ A g o cfg = @getMasses ℝ realArith g o cfg ∧ @getObserver ℝ A g o cfg = @getObserver ℝ realArith g o cfg ∧
    (∀ ms, @getMasses ℝ realArith g o cfg = .ok ms → ∀ m ∈ ms, m.dataset.crs.name = .CART ∨ m.dataset.crs.name = .ECEF) ∧
    ∀ ob, @getObserver ℝ realArith g o cfg = .ok ob → ob.dataset.crs.name = .CART := by
  have hb := plain_bodies h.toPlainBodies g o A
  have ho := getDataset_plain h.observers (.inl rfl) g o A
  refine ⟨hb.1, ?_, hb.2, ?_⟩
  · simp only [getObserver, ho.1]
  · intro ob hob
    simp only [getObserver] at hob
    obtain ⟨d, hd, hob⟩ := except_bind_ok hob
    cases hob
    have := ho.2 d hd
    simp only [mkObserver, this]

/-! ### The theorems -/

/-- **C86** `geec run` in floating point, the field.  A plain configuration (bodies in Cartesian or geocentric coordinates, Cartesian
observation points, no grid) gives the table `t` in exact arithmetic, and no comparison is a tie at any observation point.  Then for
every `ε` there is an accuracy such that with any arithmetic that accurate the run returns, with the same labels and coordinates in its table, and every Gx, Gy, Gz
within `ε` of that of `t`. -/
theorem C86_field (g : Geodesy ℝ) (o : Outside ℝ) (lib : HullLib ℝ) (hlib : lib.Honest) (cfg : View ℝ) (l : List (View ℝ)) (hcfg : PlainConfig cfg l)
    (gr : Bool) (t : Table ℝ) (h : runTable g o lib cfg gr = .ok t) (ms : List (Mass ℝ)) (hms : getMasses g o cfg = .ok ms) (ob : Observer ℝ)
    (hob : getObserver g o cfg = .ok ob) (hd : ∀ p ∈ ob.dataset.coords.rows, DecidedPoint lib ms p) {ε : ℝ} (hε : 0 < ε) :
    ∃ u, 0 < u ∧ ∀ A : Arith ℝ, Accurate A u → ∃ t', @runTable ℝ A g o lib cfg gr = .ok t' ∧ t'.columns = t.columns ∧
      List.Forall₂ (fun row row0 => row.length = 12 ∧ row0.length = 12 ∧ row.take 3 = row0.take 3 ∧
        List.Forall₂ (fun a b => |a - b| ≤ ε) (row.take 6) (row0.take 6)) t'.rows t.rows := by
  have hp := plain_reading hcfg g o
  obtain ⟨u, hu, k⟩ := run_near g o lib hlib cfg gr t h ms hms ob hob ((hp realArith).2.2.1 ms hms) ((hp realArith).2.2.2 ob hob) hd False
    (fun h => h.elim) hε
  refine ⟨u, hu, fun A hA => ?_⟩
  obtain ⟨t', h1, h2, h3⟩ := k A hA ((hp A).1.trans hms) ((hp A).2.1.trans hob)
  exact ⟨t', h1, h2, h3.imp fun a b h => ⟨h.1, h.2.1, h.coordinates, h.2.2.2.1⟩⟩

/-- **C86** The whole table, if no observation point is on the line of an edge. -/
theorem C86_table (g : Geodesy ℝ) (o : Outside ℝ) (lib : HullLib ℝ) (hlib : lib.Honest) (cfg : View ℝ) (l : List (View ℝ)) (hcfg : PlainConfig cfg l)
    (gr : Bool) (t : Table ℝ) (h : runTable g o lib cfg gr = .ok t) (ms : List (Mass ℝ)) (hms : getMasses g o cfg = .ok ms) (ob : Observer ℝ)
    (hob : getObserver g o cfg = .ok ob) (hd : ∀ p ∈ ob.dataset.coords.rows, DecidedPoint lib ms p)
    (ho : ∀ p ∈ ob.dataset.coords.rows, OffLinesPoint lib ms p) {ε : ℝ} (hε : 0 < ε) :
    ∃ u, 0 < u ∧ ∀ A : Arith ℝ, Accurate A u → ∃ t', @runTable ℝ A g o lib cfg gr = .ok t' ∧ t'.columns = t.columns ∧
      List.Forall₂ (fun row row0 => row.take 3 = row0.take 3 ∧ List.Forall₂ (fun a b => |a - b| ≤ ε) row row0) t'.rows t.rows := by
  have hp := plain_reading hcfg g o
  obtain ⟨u, hu, k⟩ := run_near g o lib hlib cfg gr t h ms hms ob hob ((hp realArith).2.2.1 ms hms) ((hp realArith).2.2.2 ob hob) hd True
    (fun _ => ho) hε
  refine ⟨u, hu, fun A hA => ?_⟩
  obtain ⟨t', h1, h2, h3⟩ := k A hA ((hp A).1.trans hms) ((hp A).2.1.trans hob)
  exact ⟨t', h1, h2, h3.imp fun a b h => ⟨h.coordinates, h.2.2.2.2 trivial⟩⟩

/-- **C86** Newton's law: with bodies of equal density `ρ` and constant `Gc` and observation points in regular position, the run in any
accurate enough arithmetic returns a table whose line of the i-th point holds its coordinates and, to within `ε`, `1e5 Gc ρ` times the attraction of
the solids spanned by the configured points. -/
theorem C86_newton (g : Geodesy ℝ) (o : Outside ℝ) (lib : HullLib ℝ) (hlib : lib.Honest) (cfg : View ℝ) (l : List (View ℝ)) (hcfg : PlainConfig cfg l)
    (hshow : configShow cfg = .ok ()) (ms : List (Mass ℝ)) (hms : getMasses g o cfg = .ok ms) (hne : ms ≠ []) (ob : Observer ℝ)
    (hob : getObserver g o cfg = .ok ob) (hne' : ob.dataset.coords.rows ≠ []) (hhull : ∀ m ∈ ms, ∃ h, lib.convexHull m.dataset.coords.rows = .ok h)
    (ρ Gc : ℝ) (hρ : ∀ m ∈ ms, m.density = ρ ∧ m.gravityConstant = Gc)
    (hd : ∀ p ∈ ob.dataset.coords.rows, DecidedPoint lib ms p ∧ RegularPoint lib ms p) {ε : ℝ} (hε : 0 < ε) :
    ∃ u, 0 < u ∧ ∀ A : Arith ℝ, Accurate A u → ∃ t, @runTable ℝ A g o lib cfg false = .ok t ∧ t.rows.length = ob.dataset.coords.rows.length ∧
      ∀ (i : Nat) (p : V3 ℝ), ob.dataset.coords.rows[i]? = some p → ∃ G : V3 ℝ, (t.rows[i]?).map (List.take 6) = some [p.x, p.y, p.z, G.x, G.y, G.z] ∧
        |G.x - 100000 * Gc * ρ * sumOver ms (fun B => (attraction B p).x)| ≤ ε ∧
        |G.y - 100000 * Gc * ρ * sumOver ms (fun B => (attraction B p).y)| ≤ ε ∧
        |G.z - 100000 * Gc * ρ * sumOver ms (fun B => (attraction B p).z)| ≤ ε := by
  have hp := plain_reading hcfg g o
  have hcm := (hp realArith).2.2.1 ms hms
  have hco := (hp realArith).2.2.2 ob hob
  obtain ⟨ps, hps⟩ := polys_exist hlib ms hhull
  have hr := of_plain hms hob hcm hco hps
  obtain ⟨t0, ht0⟩ := run_returns_of hr hshow hne hne' (gr := false) (by
    intro m hm H q hH hq p hp ρ Gc
    obtain ⟨G, T, hv⟩ := C22_total (hlib _ _ hH).2 hq ((hd p hp).1 m hm H hH).ne_corner ρ Gc
    exact ⟨_, hv⟩)
  have hlen : t0.rows.length = ob.dataset.coords.rows.length := by
    obtain ⟨r', _, _, hr', _, _, _, hrows⟩ := runTable_ok ht0
    obtain rfl := hr'.unique hr
    exact hrows.length_eq.symm
  obtain ⟨u, hu, k⟩ := C86_field g o lib hlib cfg l hcfg false t0 ht0 ms hms ob hob (fun p hp => (hd p hp).1) hε
  refine ⟨u, hu, fun A hA => ?_⟩
  obtain ⟨t, h1, -, h3⟩ := k A hA
  refine ⟨t, h1, h3.length_eq.trans hlen, fun i p hi => ?_⟩
  obtain ⟨row0, e0, -, e1⟩ := @C69_newton g o lib hlib cfg false t0 _ ht0 hr ρ Gc hρ i p hi (hd p (List.mem_of_getElem? hi)).2
  obtain ⟨row, e2, -, -, e3, e4⟩ := forall₂_get h3.flip e0
  have e5 : row0.take 3 = [p.x, p.y, p.z] := by
    have := congrArg (List.take 3) e1
    rw [List.take_take] at this
    simpa using this
  rw [e1] at e4
  rw [e2]
  rw [e5] at e3
  have e6 : (row.take 6).take 3 = [p.x, p.y, p.z] := by rw [List.take_take]; exact e3
  simp only [Option.map_some]
  generalize row.take 6 = r6 at e4 e6
  cases e4 with | cons _ e4 => cases e4 with | cons _ e4 => cases e4 with | cons _ e4 => cases e4 with | cons f1 e4 => cases e4 with | cons f2 e4 => cases e4 with | cons f3 e4 =>
  cases e4
  simp only [List.take, List.cons.injEq, and_true] at e6
  obtain ⟨rfl, rfl, rfl⟩ := e6
  exact ⟨⟨_, _, _⟩, rfl, f1, f2, f3⟩

/-! ### A concrete run -/

theorem halves_plain (ρ ρ' : ℝ) : PlainConfig (halves "cart" "cart" "ellps" ρ ρ')
    [⟨[.ok (massVal "cart" ρ ⟨0, 0, 0⟩ ⟨1, 0, 0⟩ ⟨1 / 2, 1 / 2, 0⟩ ⟨0, 0, 1⟩)]⟩,
      ⟨[.ok (massVal "cart" ρ' ⟨0, 0, 0⟩ ⟨1 / 2, 1 / 2, 0⟩ ⟨0, 1, 0⟩ ⟨0, 0, 1⟩)]⟩] := by
  have hr : readRef (⟨[.ok (crsVal "cart" "ellps")]⟩ : View ℝ) = .ok .CART := by
    have h2 : ((⟨[.ok (crsVal "cart" "ellps")]⟩ : View ℝ).at "ref").getOptStr "ellps" = .ok "cart" := rfl
    simp only [readRef, h2, Bind.bind, Except.bind, findMember_cart]; rfl
  refine ⟨⟨rfl, ?_⟩, ⟨.inl ⟨_, _, rfl⟩, hr⟩⟩
  intro w hw
  simp only [List.mem_cons, List.not_mem_nil, or_false] at hw
  rcases hw with rfl | rfl <;> exact ⟨.inl ⟨.inl ⟨_, _, rfl⟩, hr⟩, ⟨_, _, rfl⟩, ⟨_, _, rfl⟩⟩

theorem halves_decided {h : Hull ℝ} (hh : h.IsHull) (ht : h.TensorRegular ⟨2, 3, 5⟩)
    (hx : ∀ i < 4, (h.pt i).x ≤ 1 ∧ (h.pt i).y ≤ 1 ∧ (h.pt i).z ≤ 1) (h4 : h.points.length = 4) : h.Decided ⟨2, 3, 5⟩ := by
  apply ht.decided hh
  intro t ht i hi
  have hi4 : i < 4 := by rw [← h4]; exact hh.cornerIndex t ht i hi
  have e3 : repsilon < 1 := by unfold repsilon; norm_num
  refine e3.trans_le ?_
  unfold vlen
  apply Real.le_sqrt_of_sq_le
  simp only [rdot, sub_x, sub_y, sub_z]
  obtain ⟨a, b, c⟩ := hx i hi4
  nlinarith [mul_self_nonneg ((h.pt i).x - 2), mul_self_nonneg ((h.pt i).y - 3)]

theorem halfA_decided : halfA.Decided ⟨2, 3, 5⟩ := by
  refine halves_decided halfA_isHull halfA_tensorRegular ?_ (by rw [halfA_points]; rfl)
  intro i hi
  rw [halfA_pt hi]
  interval_cases i <;> simp only [tetra_pt0, tetra_pt1, tetra_pt2, tetra_pt3] <;> norm_num

theorem halfB_decided : halfB.Decided ⟨2, 3, 5⟩ := by
  refine halves_decided halfB_isHull halfB_tensorRegular ?_ (by rw [halfB_points]; rfl)
  intro i hi
  rw [halfB_pt hi]
  interval_cases i <;> simp only [tetra_pt0, tetra_pt1, tetra_pt2, tetra_pt3] <;> norm_num

theorem halfA_offLines : halfA.OffLines ⟨2, 3, 5⟩ := by
  intro t ht i j hi hj hij h0
  have hi4 : i < 4 := by have := halfA_isHull.cornerIndex t ht i hi; rwa [halfA_points] at this
  have hj4 : j < 4 := by have := halfA_isHull.cornerIndex t ht j hj; rwa [halfA_points] at this
  have hx := congrArg V3.x h0
  have hy := congrArg V3.y h0
  have hz := congrArg V3.z h0
  rw [halfA_pt hi4, halfA_pt hj4] at hx hy hz
  interval_cases i <;> interval_cases j <;> first | exact hij rfl | skip
  all_goals simp only [tetra_pt0, tetra_pt1, tetra_pt2, tetra_pt3, cross_x, cross_y, cross_z, sub_x, sub_y, sub_z, zeros_x, zeros_y, zeros_z] at hx hy hz
  all_goals first | (norm_num at hx; done) | (norm_num at hy; done) | (norm_num at hz; done)

theorem halfB_offLines : halfB.OffLines ⟨2, 3, 5⟩ := by
  intro t ht i j hi hj hij h0
  have hi4 : i < 4 := by have := halfB_isHull.cornerIndex t ht i hi; rwa [halfB_points] at this
  have hj4 : j < 4 := by have := halfB_isHull.cornerIndex t ht j hj; rwa [halfB_points] at this
  have hx := congrArg V3.x h0
  have hy := congrArg V3.y h0
  have hz := congrArg V3.z h0
  rw [halfB_pt hi4, halfB_pt hj4] at hx hy hz
  interval_cases i <;> interval_cases j <;> first | exact hij rfl | skip
  all_goals simp only [tetra_pt0, tetra_pt1, tetra_pt2, tetra_pt3, cross_x, cross_y, cross_z, sub_x, sub_y, sub_z, zeros_x, zeros_y, zeros_z] at hx hy hz
  all_goals first | (norm_num at hx; done) | (norm_num at hy; done) | (norm_num at hz; done)

theorem halves_at {Q : Hull ℝ → Prop} (hA : Q halfA) (hB : Q halfB) (ρ ρ' : ℝ) :
    ∀ m ∈ halvesMasses .CART ρ ρ', ∀ h, fourPoints.convexHull m.dataset.coords.rows = .ok h → Q h := by
  intro m hm H hH
  simp only [halvesMasses, List.mem_cons, List.not_mem_nil, or_false] at hm
  rcases hm with rfl | rfl
  · rw [fourPoints_A] at hH; cases hH; exact hA
  · rw [fourPoints_B] at hH; cases hH; exact hB

/-- C86: the run of two bodies that tile a tetrahedron -/
example : ∃ u, 0 < u ∧ ∀ A : Arith ℝ, Accurate A u → ∃ t row G, @runTable ℝ A toyGeo noFiles fourPoints (halves "cart" "cart" "ellps" 2 2) false = .ok t ∧
    t.rows[0]? = some row ∧ row[5]? = some G ∧
    |G - 100000 * 1 * 2 * sumOver (halvesMasses .CART 2 2) (fun B => (attraction B ⟨2, 3, 5⟩).z)| ≤ 1 / 1000 := by
  obtain ⟨u, hu, k⟩ := C86_newton toyGeo noFiles fourPoints fourPoints_honest _ _ (halves_plain 2 2) (halves_show _ _ _ _ _) _
    (halves_masses findMember_cart (.inl rfl) _ _ _ _) (by simp [halvesMasses]) _ (halves_observer (getCrs_plain findMember_cart (.inl rfl) "ellps") _ _ _)
    (List.cons_ne_nil _ _) (by
      intro m hm
      simp only [halvesMasses, List.mem_cons, List.not_mem_nil, or_false] at hm
      rcases hm with rfl | rfl
      · exact ⟨_, fourPoints_A⟩
      · exact ⟨_, fourPoints_B⟩) 2 1 (by
      intro m hm
      simp only [halvesMasses, List.mem_cons, List.not_mem_nil, or_false] at hm
      rcases hm with rfl | rfl <;> exact ⟨rfl, rfl⟩) (by
      intro p hp
      obtain rfl : p = ⟨2, 3, 5⟩ := List.mem_singleton.mp hp
      exact ⟨halves_at halfA_decided halfB_decided 2 2, halves_at halfA_regular halfB_regular 2 2⟩) (ε := 1 / 1000) (by norm_num)
  refine ⟨u, hu, fun A hA => ?_⟩
  obtain ⟨t, h1, -, h3⟩ := k A hA
  obtain ⟨G, h4, -, -, h5⟩ := h3 0 ⟨2, 3, 5⟩ rfl
  cases hrow : t.rows[0]? with
  | none => rw [hrow] at h4; cases h4
  | some row =>
    rw [hrow] at h4
    have h4 : row.take 6 = _ := Option.some.inj h4
    refine ⟨t, row, G.z, h1, hrow, ?_, h5⟩
    have : row[5]? = (row.take 6)[5]? := by rw [List.getElem?_take]; simp
    rw [this, h4]; rfl

/-- C86, table: all twelve columns -/
example {ε : ℝ} (hε : 0 < ε) : ∃ t, runTable toyGeo noFiles fourPoints (halves "cart" "cart" "ellps" 2 2) true = .ok t ∧ ∃ u, 0 < u ∧ ∀ A : Arith ℝ, Accurate A u →
    ∃ t', @runTable ℝ A toyGeo noFiles fourPoints (halves "cart" "cart" "ellps" 2 2) true = .ok t' ∧ t'.columns = t.columns ∧
      List.Forall₂ (fun row row0 => row.take 3 = row0.take 3 ∧ List.Forall₂ (fun a b => |a - b| ≤ ε) row row0) t'.rows t.rows := by
  obtain ⟨p, q, t, hp, hq, hr, ht⟩ := halves_run findMember_cart (.inl rfl) (getCrs_plain findMember_cart (.inl rfl) "ellps") wgs84_cart 2 2 true
  refine ⟨t, ht, ?_⟩
  have e : ∀ p ∈ (mkObserver ⟨⟨[⟨2, 3, 5⟩], false⟩, ⟨.CART, none, none, .ELLPS⟩⟩ : Observer ℝ).dataset.coords.rows, p = ⟨2, 3, 5⟩ :=
    fun p hp => List.mem_singleton.mp hp
  exact C86_table toyGeo noFiles fourPoints fourPoints_honest _ _ (halves_plain 2 2) true t ht _ hr.configured _ hr.observer
    (fun p hp => by rw [e p hp]; exact halves_at halfA_decided halfB_decided 2 2)
    (fun p hp => by rw [e p hp]; exact halves_at halfA_offLines halfB_offLines 2 2) hε

end
end Geec
