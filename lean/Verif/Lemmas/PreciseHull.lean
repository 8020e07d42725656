import Verif.Lemmas.PreciseEdge
import Verif.Props.Gravity
/-
The construction of the polyhedron in an accurate arithmetic: the same faces, edges and twins as in exact arithmetic, with rounded
normals, tangents and lengths.
-/
namespace Geec
open Filter Topology
noncomputable section

/-- the centroid is on the side of the normal of the triangle as it is listed -/
def turned (h : Hull ℝ) (s : Nat × Nat × Nat) : Bool := 0 < rdot (h.normal s) ((meanPoint h.points h.vertices).sub (h.pt s.1))

/-- vertex order of the face made of a triangle -/
def orderOf (h : Hull ℝ) (s : Nat × Nat × Nat) : Nat × Nat × Nat := if turned h s then reverseTail s else s

/-- normal of the face made of a triangle, computed with `A` -/
def unAt (A : Setting) (h : Hull ℝ) (s : Nat × Nat × Nat) : V3 ℝ :=
  let cr := @cross ℝ A (@V3.sub ℝ A (A.move (h.pt s.2.1)) (A.move (h.pt s.1))) (@V3.sub ℝ A (A.move (h.pt s.2.2)) (A.move (h.pt s.1)))
  if turned h s then @V3.sdiv ℝ A (@V3.neg ℝ A cr) (A.norm cr) else @V3.sdiv ℝ A cr (A.norm cr)

/-- a face computed with `A` -/
def faceAt (A : Setting) (h : Hull ℝ) (k : Nat) (f : Face ℝ) : Face ℝ :=
  { f with points := f.points.map A.move, un := unAt A h (h.simplices.getD k (0, 0, 0)), edges := f.edges.map (edgeAt A) }

/-- a polyhedron computed with `A` -/
def polyAt (A : Setting) (h : Hull ℝ) (p : Poly ℝ) : Poly ℝ where
  points := p.points.map A.move
  faces := p.faces.mapIdx (faceAt A h)

/-- the hull with its points moved -/
def Hull.moved (A : Setting) (h : Hull ℝ) : Hull ℝ := { h with points := h.points.map A.move }

theorem Hull.moved_ideal (h : Hull ℝ) : h.moved ideal = h := by unfold Hull.moved; congr; exact List.map_id _

theorem Hull.moved_plain (A : Arith ℝ) (h : Hull ℝ) : h.moved (.plain A) = h := by unfold Hull.moved; congr; exact List.map_id _

theorem at3_at (A : Setting) {l : List (V3 ℝ)} {i : Nat} (hi : i < l.length) : @at3 ℝ A (l.map A.move) i = A.move (@at3 ℝ realArith l i) := by
  unfold at3
  rw [List.getD_eq_getElem?_getD, List.getD_eq_getElem?_getD, List.getElem?_map, List.getElem?_eq_getElem hi]
  rfl

theorem meanPoint_cont {pts : List (V3 ℝ)} {idx : List Nat} (hi : ∀ i ∈ idx, i < pts.length) (h0 : idx ≠ []) :
    ContV (fun A => @meanPoint ℝ A (pts.map A.move) idx) := by
  have key : ∀ (l : List Nat), (∀ i ∈ l, i < pts.length) → ∀ acc : Setting → V3 ℝ, ContV acc →
      ContV (fun A => l.foldl (fun acc i => @V3.add ℝ A acc (@at3 ℝ A (pts.map A.move) i)) (acc A)) := by
    intro l
    induction l with
    | nil => intro _ acc h; exact h
    | cons i l ih =>
      intro hl acc h
      simp only [List.foldl_cons]
      refine ih (fun j hj => hl j (by simp [hj])) (fun A => @V3.add ℝ A (acc A) (@at3 ℝ A (pts.map A.move) i)) (contV_add h ?_)
      simp only [at3_at _ (hl i (by simp))]
      exact contV_move _
  have hn : (idx.length : ℝ) ≠ 0 := by exact_mod_cast (List.length_pos_of_ne_nil h0).ne'
  exact contV_sdiv (key idx hi _ contV_zeros) (cont_ofNat idx.length) hn

variable {h : Hull ℝ}

theorem vertices_ne (hh : h.IsHull) : h.vertices ≠ [] := by
  intro h0
  obtain ⟨q, hq⟩ := hh.solid
  have := hh.vertexHull (interior_subset hq)
  rw [h0] at this
  simp at this

theorem unAt_cont (hh : h.IsHull) {s : Nat × Nat × Nat} (hs : s ∈ h.simplices) : ContV (fun A => unAt A h s) := by
  have C : ContV (fun A => @cross ℝ A (@V3.sub ℝ A (A.move (h.pt s.2.1)) (A.move (h.pt s.1))) (@V3.sub ℝ A (A.move (h.pt s.2.2)) (A.move (h.pt s.1)))) :=
    contV_cross (contV_sub (contV_move _) (contV_move _)) (contV_sub (contV_move _) (contV_move _))
  have n0 : vlen (h.normal s) ≠ 0 := (vlen_pos (hh.normal_ne hs)).ne'
  unfold unAt
  cases turned h s
  · exact contV_sdiv C (cont_norm C) n0
  · exact contV_sdiv (contV_neg C) (cont_norm C) n0

theorem orient_at (hh : h.IsHull) {s : Nat × Nat × Nat} (hs : s ∈ h.simplices) :
    ∀ᶠ A : Setting in precise, ∀ inHull, @orient ℝ A (h.points.map A.move) inHull (@meanPoint ℝ A (h.points.map A.move) h.vertices) s = .ok (unAt A h s, orderOf h s) := by
  have C : ContV (fun A => @cross ℝ A (@V3.sub ℝ A (A.move (h.pt s.2.1)) (A.move (h.pt s.1))) (@V3.sub ℝ A (A.move (h.pt s.2.2)) (A.move (h.pt s.1)))) :=
    contV_cross (contV_sub (contV_move _) (contV_move _)) (contV_sub (contV_move _) (contV_move _))
  have D := cont_dot C (contV_sub (meanPoint_cont hh.vertexIndex (vertices_ne hh)) (contV_move (h.pt s.1)))
  have hi : h.points.map ideal.move = h.points := List.map_id _
  have a1 : ∀ A : Setting, @at3 ℝ A (h.points.map A.move) s.1 = A.move (h.pt s.1) := fun A => at3_at A (hh.cornerIndex s hs _ (.inl rfl))
  have a2 : ∀ A : Setting, @at3 ℝ A (h.points.map A.move) s.2.1 = A.move (h.pt s.2.1) := fun A => at3_at A (hh.cornerIndex s hs _ (.inr (.inl rfl)))
  have a3 : ∀ A : Setting, @at3 ℝ A (h.points.map A.move) s.2.2 = A.move (h.pt s.2.2) := fun A => at3_at A (hh.cornerIndex s hs _ (.inr (.inr rfl)))
  have hd : ∀ s : Nat × Nat × Nat, rdot (h.normal s) ((meanPoint h.points h.vertices).sub (h.pt s.1)) =
      rdot (h.normal s) (meanPoint h.points h.vertices) - rdot (h.normal s) (h.pt s.1) := fun s => rdot_sub _ _ _
  rcases hh.outward hs with ho | ho
  · have hlt := hh.centroid_lt ho
    have hneg : rdot (h.normal s) ((meanPoint h.points h.vertices).sub (h.pt s.1)) < 0 := by rw [hd]; linarith
    have ht : turned h s = false := by unfold turned; rw [decide_eq_false_iff_not]; exact not_lt.mpr hneg.le
    rw [← hi] at hneg
    filter_upwards [eq_false D cont_zero hneg.ne, lt_false cont_zero D hneg] with A k1 k2 inHull
    simp only [orient, a1, a2, a3, k1, k2, unAt, orderOf, ht, Bool.false_and, Bool.false_eq_true, if_false]
  · have hlt := hh.centroid_lt ho
    rw [Hull.normal_reverse, neg_rdot, neg_rdot] at hlt
    have hpos : 0 < rdot (h.normal s) ((meanPoint h.points h.vertices).sub (h.pt s.1)) := by
      rw [hd]; simp only [reverseTail] at hlt; linarith
    have ht : turned h s = true := by unfold turned; rw [decide_eq_true_iff]; exact hpos
    rw [← hi] at hpos
    filter_upwards [eq_false D cont_zero hpos.ne', lt_true cont_zero D hpos] with A k1 k2 inHull
    simp only [orient, a1, a2, a3, k1, k2, unAt, orderOf, ht, Bool.false_and, Bool.false_eq_true, if_false, if_true]

theorem getEdges_at (A : Setting) {pts : List (V3 ℝ)} {s : Nat × Nat × Nat} (hs : ∀ i, Corner s i → i < pts.length)
    (nb : List Nat) (ns : List (Nat × Nat × Nat)) :
    @getEdges ℝ A (pts.map A.move) s nb ns = (@getEdges ℝ realArith pts s nb ns).map (List.map (edgeAt A)) := by
  unfold getEdges
  apply Motion.mapM_map_of
  intro pr hpr
  have := Hull.corner_of_cyc (t := s) hpr
  rcases getTwinface nb ns pr with x | tf
  · rfl
  · simp only [Bind.bind, Except.bind]
    rw [at3_at A (hs _ this.1), at3_at A (hs _ this.2)]
    rfl

/-- what is asked of an arithmetic: it orients the triangles and compares the points like exact arithmetic -/
structure GoodFor (A : Setting) (h : Hull ℝ) : Prop where
  orient : ∀ s ∈ h.simplices, ∀ inHull, @orient ℝ A (h.points.map A.move) inHull (@meanPoint ℝ A (h.points.map A.move) h.vertices) s = .ok (unAt A h s, orderOf h s)
  veq : ∀ a ∈ h.points, ∀ b ∈ h.points, @veq ℝ A (A.move a) (A.move b) = @veq ℝ realArith a b

theorem orderOf_corner {s : Nat × Nat × Nat} {i : Nat} (hi : Corner (orderOf h s) i) : Corner s i := by
  unfold orderOf at hi
  split at hi
  · exact (Hull.corner_of_order (.inr rfl) i).mp hi
  · exact hi

theorem buildFaces_at {A : Setting} (hh : h.IsHull) {inHull inHull' : V3 ℝ → Bool} (hA : GoodFor A h) (hR : GoodFor ideal h) (nbs : List (List Nat)) :
    ∀ k (sims : List (Nat × Nat × Nat)), (∀ j, k ≤ j → sims[j]? = h.simplices[j]?) → (∀ s ∈ sims, ∀ i, Corner s i → i < h.points.length) →
    k + nbs.length ≤ h.simplices.length →
    @buildFaces ℝ A (h.points.map A.move) inHull' (@meanPoint ℝ A (h.points.map A.move) h.vertices) k nbs sims =
      (@buildFaces ℝ realArith h.points inHull (@meanPoint ℝ realArith h.points h.vertices) k nbs sims).map (fun fs => fs.mapIdx (fun i f => faceAt A h (k + i) f)) := by
  induction nbs with
  | nil => intro k sims _ _ _; rfl
  | cons nb nbs ih =>
    intro k sims hsame hs hl
    simp only [List.length_cons] at hl
    have hk : k < h.simplices.length := by omega
    have hgk : sims[k]? = some h.simplices[k] := by rw [hsame k (le_refl k)]; exact List.getElem?_eq_getElem hk
    have hget : sims.getD k (0, 0, 0) = h.simplices[k] := Hull.getD_of_some hgk
    have hget' : h.simplices.getD k (0, 0, 0) = h.simplices[k] := Hull.getD_of_some (List.getElem?_eq_getElem hk)
    have hsk := List.getElem_mem hk
    have hcs : ∀ i, Corner (orderOf h h.simplices[k]) i → i < h.points.length := fun i hi => hh.cornerIndex _ hsk i (orderOf_corner hi)
    unfold buildFaces
    have hr := hR.orient _ hsk inHull
    rw [show h.points.map ideal.move = h.points from List.map_id _] at hr
    rw [hget, hA.orient _ hsk inHull', hr]
    simp only [Bind.bind, Except.bind, Pure.pure, Except.pure]
    rw [getEdges_at A hcs]
    generalize @getEdges ℝ realArith h.points (orderOf h h.simplices[k]) nb _ = z
    rcases z with x | es
    · rfl
    · simp only [Except.map]
      rw [ih (k + 1) (sims.set k (orderOf h h.simplices[k])) (fun j hj => by
          rw [List.getElem?_set_ne (by omega)]; exact hsame j (by omega)) (fun t ht i hi => by
        rcases List.mem_or_eq_of_mem_set ht with h1 | h1
        · exact hs t h1 i hi
        · subst h1; exact hcs i hi) (by omega)]
      generalize @buildFaces ℝ realArith h.points inHull (@meanPoint ℝ realArith h.points h.vertices) (k + 1) nbs _ = z
      rcases z with x | fs
      · rfl
      · simp only [Except.map, List.mapIdx_cons]
        rw [at3_at A (hcs _ (.inl rfl)), at3_at A (hcs _ (.inr (.inl rfl))), at3_at A (hcs _ (.inr (.inr rfl)))]
        congr 2
        · unfold faceAt
          simp only [Nat.add_zero, hget']
          rfl
        · congr 1
          funext i f
          rw [show k + (i + 1) = k + 1 + i by omega]

theorem findTwin_at {A : Setting} (hA : GoodFor A h) {es : List (Edge ℝ)} {e : Edge ℝ}
    (hes : ∀ t ∈ es, t.start ∈ h.points ∧ t.fin ∈ h.points) (he : e.start ∈ h.points ∧ e.fin ∈ h.points) :
    @findTwin ℝ A (es.map (edgeAt A)) (edgeAt A e) = @findTwin ℝ realArith es e := by
  unfold findTwin
  rw [List.findIdx?_map]
  induction es with
  | nil => rfl
  | cons t es ih =>
    rw [List.findIdx?_cons, List.findIdx?_cons, ih (fun t ht => hes t (by simp [ht]))]
    obtain ⟨h1, h2⟩ := hes t (by simp)
    simp only [Function.comp, edgeAt, hA.veq _ he.1 _ h2, hA.veq _ he.2 _ h1]

/-- all edges end in points of the hull -/
def EndsIn (h : Hull ℝ) (fs : List (Face ℝ)) : Prop := ∀ f ∈ fs, ∀ e ∈ f.edges, e.start ∈ h.points ∧ e.fin ∈ h.points

theorem twinStep_at {A : Setting} (hA : GoodFor A h) {fs : List (Face ℝ)} (hf : EndsIn h fs) {e : Edge ℝ}
    (he : e.start ∈ h.points ∧ e.fin ∈ h.points) (tw : TwinMap) (i j : Nat) :
    @twinStep ℝ A (fs.mapIdx (faceAt A h)) tw i j (edgeAt A e) = @twinStep ℝ realArith fs tw i j e := by
  unfold twinStep
  rcases tw.get i j with _ | t
  · have : (edgeAt A e).twinface = e.twinface := rfl
    simp only [this, List.getElem?_mapIdx]
    rcases hft : fs[e.twinface]? with _ | ft
    · rfl
    · simp only [Option.map_some, faceAt, findTwin_at hA (hf ft (List.mem_of_getElem? hft)) he]
  · rfl

theorem twinEdges_at {A : Setting} (hA : GoodFor A h) {fs : List (Face ℝ)} (hf : EndsIn h fs) (i : Nat) (es : List (Edge ℝ))
    (hes : ∀ t ∈ es, t.start ∈ h.points ∧ t.fin ∈ h.points) : ∀ j tw,
    @twinEdges ℝ A (fs.mapIdx (faceAt A h)) i j (es.map (edgeAt A)) tw = @twinEdges ℝ realArith fs i j es tw := by
  induction es with
  | nil => intro j tw; rfl
  | cons e es ih =>
    intro j tw
    simp only [List.map_cons, twinEdges, twinStep_at hA hf (hes e (by simp)), ih (fun t ht => hes t (by simp [ht]))]

theorem twinFaces_at {A : Setting} (hA : GoodFor A h) {fs : List (Face ℝ)} (hf : EndsIn h fs) (gs : List (Face ℝ)) (hg : EndsIn h gs) : ∀ k i tw,
    @twinFaces ℝ A (fs.mapIdx (faceAt A h)) i (gs.mapIdx (fun j f => faceAt A h (k + j) f)) tw = @twinFaces ℝ realArith fs i gs tw := by
  induction gs with
  | nil => intro k j tw; rfl
  | cons f gs ih =>
    intro k i tw
    simp only [List.mapIdx_cons, twinFaces]
    have : (faceAt A h (k + 0) f).edges = f.edges.map (edgeAt A) := rfl
    rw [this, twinEdges_at hA hf _ _ (hg f (by simp))]
    have := ih (fun f hf => hg f (by simp [hf])) (k + 1) (i + 1)
    simp only [show ∀ j, k + 1 + j = k + (j + 1) by intro j; omega] at this
    exact this _

theorem getEdgeTwin_at {A : Setting} (hA : GoodFor A h) {fs : List (Face ℝ)} (hf : EndsIn h fs) :
    @getEdgeTwin ℝ A (fs.mapIdx (faceAt A h)) = (@getEdgeTwin ℝ realArith fs).mapIdx (faceAt A h) := by
  unfold getEdgeTwin
  have := twinFaces_at hA hf fs hf 0 0
  simp only [Nat.zero_add] at this
  rw [this]
  apply List.ext_getElem?
  intro i
  simp only [List.getElem?_mapIdx, Option.map_map]
  rcases fs[i]? with _ | f
  · rfl
  · simp only [Option.map_some, Function.comp]
    congr 1
    simp only [faceAt, Face.mk.injEq, true_and]
    apply List.ext_getElem?
    intro j
    simp only [List.getElem?_mapIdx, List.getElem?_map, Option.map_map]
    rcases f.edges[j]? with _ | e
    · rfl
    · rfl

theorem veq_at (a b : V3 ℝ) : ∀ᶠ A : Setting in precise, @veq ℝ A (A.move a) (A.move b) = @veq ℝ realArith a b := by
  have key : ∀ x y : Setting → ℝ, Cont x → Cont y → x ideal ≠ y ideal → ∀ᶠ A : Setting in precise, A.eq (x A) (y A) = false := fun x y hx hy hxy => eq_false hx hy hxy
  have hm := contV_move a
  have hn := contV_move b
  by_cases hab : a = b
  · subst hab
    filter_upwards [eventually_accurate one_pos] with A hA
    have hA : ∀ x, A.eq x x = true := hA.eq_refl
    have hr : ∀ x, realArith.eq x x = true := fun x => (r_eq x x).mpr rfl
    simp only [veq, hA, hr]
  · have hr : @veq ℝ realArith a b = false := by
      rw [← Bool.not_eq_true]
      intro h
      simp only [veq, Bool.and_eq_true, r_eq] at h
      exact hab (V3.ext' h.1.1 h.1.2 h.2)
    rw [hr]
    by_cases hx : a.x = b.x
    · by_cases hy : a.y = b.y
      · have hz : a.z ≠ b.z := fun hz => hab (V3.ext' hx hy hz)
        filter_upwards [key _ _ hm.2.2 hn.2.2 hz] with A h1
        simp only [veq, h1, Bool.and_false]
      · filter_upwards [key _ _ hm.2.1 hn.2.1 hy] with A h1
        simp only [veq, h1, Bool.and_false, Bool.false_and]
    · filter_upwards [key _ _ hm.1 hn.1 hx] with A h1
      simp only [veq, h1, Bool.false_and]

theorem goodFor (hh : h.IsHull) : ∀ᶠ A : Setting in precise, GoodFor A h := by
  have h1 : ∀ᶠ A : Setting in precise, ∀ s ∈ h.simplices, ∀ inHull, @orient ℝ A (h.points.map A.move) inHull (@meanPoint ℝ A (h.points.map A.move) h.vertices) s = .ok (unAt A h s, orderOf h s) := by
    have : ∀ l : List (Nat × Nat × Nat), (∀ s ∈ l, s ∈ h.simplices) → ∀ᶠ A : Setting in precise, ∀ s ∈ l, ∀ inHull,
        @orient ℝ A (h.points.map A.move) inHull (@meanPoint ℝ A (h.points.map A.move) h.vertices) s = .ok (unAt A h s, orderOf h s) := by
      intro l
      induction l with
      | nil => intro _; exact Eventually.of_forall (by simp)
      | cons s l ih =>
        intro hl
        filter_upwards [orient_at hh (hl s (by simp)), ih (fun t ht => hl t (by simp [ht]))] with A k1 k2
        intro t ht
        rcases List.mem_cons.mp ht with rfl | ht
        · exact k1
        · exact k2 t ht
    exact this _ (fun _ => id)
  have h2 : ∀ᶠ A : Setting in precise, ∀ a ∈ h.points, ∀ b ∈ h.points, @veq ℝ A (A.move a) (A.move b) = @veq ℝ realArith a b := by
    have : ∀ l l' : List (V3 ℝ), ∀ᶠ A : Setting in precise, ∀ a ∈ l, ∀ b ∈ l', @veq ℝ A (A.move a) (A.move b) = @veq ℝ realArith a b := by
      intro l l'
      have h3 : ∀ a, ∀ᶠ A : Setting in precise, ∀ b ∈ l', @veq ℝ A (A.move a) (A.move b) = @veq ℝ realArith a b := by
        intro a
        induction l' with
        | nil => exact Eventually.of_forall (by simp)
        | cons b l' ih =>
          filter_upwards [veq_at a b, ih] with A k1 k2
          intro t ht
          rcases List.mem_cons.mp ht with rfl | ht
          · exact k1
          · exact k2 t ht
      induction l with
      | nil => exact Eventually.of_forall (by simp)
      | cons a l ih =>
        filter_upwards [h3 a, ih] with A k1 k2
        intro t ht
        rcases List.mem_cons.mp ht with rfl | ht
        · exact k1
        · exact k2 t ht
    exact this _ _
  filter_upwards [h1, h2] with A k1 k2
  exact ⟨k1, k2⟩

/-- the polyhedron in an accurate arithmetic -/
theorem mkPoly_at (hh : h.IsHull) {inHull : V3 ℝ → Bool} {p : Poly ℝ} (hp : mkPoly h inHull = .ok p) :
    ∀ᶠ A : Setting in precise, ∀ inHull', @mkPoly ℝ A (h.moved A) inHull' = .ok (polyAt A h p) := by
  have hR := at_real (goodFor hh)
  have hn : ¬ h.simplices.length ≠ h.neighbors.length := by rw [hh.rows]; simp
  filter_upwards [goodFor hh] with A hA inHull'
  have hb := buildFaces_at (inHull := inHull) (inHull' := inHull') hh hA hR h.neighbors 0 h.simplices (fun _ _ => rfl) hh.cornerIndex (by rw [hh.rows]; omega)
  have hp' := hp
  unfold mkPoly at hp' ⊢
  rw [if_neg hn] at hp'
  rw [if_neg (show ¬ (h.moved A).simplices.length ≠ (h.moved A).neighbors.length from hn)]
  simp only [Bind.bind, Except.bind, Hull.moved] at hp' ⊢
  rw [hb]
  rcases hb : @buildFaces ℝ realArith h.points inHull (@meanPoint ℝ realArith h.points h.vertices) 0 h.neighbors h.simplices with x | fs
  · rw [hb] at hp'; cases hp'
  · rw [hb] at hp'
    cases hp'
    have hE : EndsIn h fs := by
      intro f hf e he
      obtain ⟨i, hi⟩ := List.mem_iff_getElem?.mp hf
      obtain ⟨j, hj⟩ := List.mem_iff_getElem?.mp he
      have hat : ∃ t, Poly.edgeAt ⟨h.points, @getEdgeTwin ℝ realArith fs⟩ i j = some { e with twin := t } := by
        unfold Poly.edgeAt getEdgeTwin
        simp only [List.getElem?_mapIdx, hi, Option.map_some, Option.bind_some, hj]
        exact ⟨_, rfl⟩
      obtain ⟨t, ht⟩ := hat
      obtain ⟨s, hs, ⟨a, ha, h1⟩, ⟨b, hb', h2⟩⟩ := edge_start_corner hh hp ht
      have hs := List.mem_of_getElem? hs
      refine ⟨?_, ?_⟩
      · rw [show e.start = h.pt a from h1]; exact Hull.pt_mem (hh.cornerIndex s hs a ha)
      · rw [show e.fin = h.pt b from h2]; exact Hull.pt_mem (hh.cornerIndex s hs b hb')
    simp only [Except.map, Pure.pure, Except.pure, Nat.zero_add, getEdgeTwin_at hA hE]
    rfl

theorem polyAt_edgeAt (A : Setting) (p : Poly ℝ) (i j : Nat) : (polyAt A h p).edgeAt i j = (p.edgeAt i j).map (edgeAt A) := by
  unfold Poly.edgeAt polyAt
  simp only [List.getElem?_mapIdx]
  rcases p.faces[i]? with _ | f
  · rfl
  · simp only [Option.map_some, Option.bind_some, faceAt, List.getElem?_map]

theorem wellTwinned_at (A : Setting) {p : Poly ℝ} (hw : p.WellTwinned) : (polyAt A h p).WellTwinned := by
  intro i j e he
  rw [polyAt_edgeAt, Option.map_eq_some_iff] at he
  obtain ⟨e0, he0, rfl⟩ := he
  obtain ⟨i', j', e', h1, h2, h3, h4⟩ := hw i j e0 he0
  exact ⟨i', j', edgeAt A e', h1, by rw [polyAt_edgeAt, h2]; rfl, h3, h4⟩

end
end Geec
