import Verif.Lemmas.HullPoly
import Verif.Spec.Tetra
import Verif.Spec.History
/-
C23-C26: the polyhedron made from a convex hull (exact arithmetic).
-/
namespace Geec
open Arith
noncomputable section

/-- Construction succeeds for every hull, whatever `_in_hull` would answer. -/
theorem hull_mkPoly_ok {h : Hull ℝ} (hh : h.IsHull) (inHull : V3 ℝ → Bool) : ∃ p, mkPoly h inHull = .ok p := by
  obtain ⟨p, _, _, _, hp, _⟩ := hh.built inHull
  exact ⟨p, hp⟩

theorem built_of_ok {h : Hull ℝ} (hh : h.IsHull) {inHull : V3 ℝ → Bool} {p : Poly ℝ} (hp : mkPoly h inHull = .ok p) :
    ∃ sm tf τ, Hull.Built h p sm tf τ := by
  obtain ⟨p', sm, tf, τ, hp', hb⟩ := hh.built inHull
  rw [hp] at hp'
  cases hp'
  exact ⟨sm, tf, τ, hb⟩

/-- the face with a given index -/
theorem face_of_built {h : Hull ℝ} {p : Poly ℝ} {sm tf τ} (hb : Hull.Built h p sm tf τ) {k : Nat} {f : Face ℝ}
    (hf : p.faces[k]? = some f) : ∃ s nb, h.simplices[k]? = some s ∧ h.neighbors[k]? = some nb ∧ (sm k = s ∨ sm k = reverseTail s) ∧
      Hull.Outward h (sm k) ∧ f =
    { faceOf h.points (sm k) ((h.normal (sm k)).sdiv (Real.sqrt (rdot (h.normal (sm k)) (h.normal (sm k))))) nb (tf k) with
      edges := (faceOf h.points (sm k) V3.zeros nb (tf k)).edges.mapIdx (fun j e => { e with twin := some (τ k j) }) } := by
  have hk := (List.getElem?_eq_some_iff.mp hf).1
  rw [hb.length] at hk
  obtain ⟨nb, hnb, hf'⟩ := hb.face k _ (List.getElem?_eq_getElem hk)
  rw [hf] at hf'
  exact ⟨_, nb, List.getElem?_eq_getElem hk, hnb, (hb.order k _ (List.getElem?_eq_getElem hk)).1,
    (hb.order k _ (List.getElem?_eq_getElem hk)).2, by simpa using hf'⟩

/-- the edge at a given position -/
theorem edge_of_built {h : Hull ℝ} {p : Poly ℝ} {sm tf τ} (hb : Hull.Built h p sm tf τ) {k j : Nat} {e : Edge ℝ} :
    p.edgeAt k j = some e ↔ ∃ s pr, h.simplices[k]? = some s ∧ (cyc (sm k))[j]? = some pr ∧
      e = { mkEdge (at3 h.points pr.1) (at3 h.points pr.2) pr (tf k pr) with twin := some (τ k j) } := by
  unfold Poly.edgeAt
  constructor
  · intro he
    rcases hf : p.faces[k]? with _ | f
    · rw [hf] at he; cases he
    · rw [hf, Option.bind_some] at he
      obtain ⟨s, nb, hs, -, -, -, rfl⟩ := face_of_built hb hf
      simp only [faceOf, List.getElem?_mapIdx, List.getElem?_map, Option.map_map, Option.map_eq_some_iff] at he
      obtain ⟨pr, hpr, rfl⟩ := he
      exact ⟨s, pr, hs, hpr, rfl⟩
  · rintro ⟨s, pr, hs, hpr, rfl⟩
    obtain ⟨nb, -, hf⟩ := hb.face k s hs
    rw [hf, Option.bind_some]
    simp only [faceOf, List.getElem?_mapIdx, List.getElem?_map, hpr, Option.map_some]

/-- **C23** Every face has a unit normal, orthogonal to the face, with the whole body on its non-positive side
(strictly, inside the body), for every order of the vertices of the simplices. -/
theorem C23_outward_unit_normals {h : Hull ℝ} (hh : h.IsHull) {inHull : V3 ℝ → Bool} {p : Poly ℝ} (hp : mkPoly h inHull = .ok p)
    {f : Face ℝ} (hf : f ∈ p.faces) :
    rdot f.un f.un = 1 ∧ (∀ a ∈ f.points, ∀ b ∈ f.points, rdot f.un (b.sub a) = 0) ∧
    (∀ a ∈ f.points, ∀ q ∈ h.body, rdot f.un (P3.toV q) ≤ rdot f.un a) ∧
    (∀ a ∈ f.points, ∀ q ∈ interior h.body, rdot f.un (P3.toV q) < rdot f.un a) := by
  obtain ⟨sm, tf, τ, hb⟩ := built_of_ok hh hp
  obtain ⟨k, hk⟩ := List.getElem?_of_mem hf
  obtain ⟨s, nb, hs, -, -, ho, rfl⟩ := face_of_built hb hk
  have hpos := norm_pos ho.ne
  have hpts : ∀ a ∈ [h.pt (sm k).1, h.pt (sm k).2.1, h.pt (sm k).2.2], rdot (h.normal (sm k)) a = rdot (h.normal (sm k)) (h.pt (sm k).1) := by
    intro a ha
    simp only [List.mem_cons, List.not_mem_nil, or_false] at ha
    rcases ha with rfl | rfl | rfl
    · rfl
    · simp [Hull.normal, triNormal, rdot]; ring
    · simp [Hull.normal, triNormal, rdot]; ring
  refine ⟨unit_of_ne ho.ne, ?_, ?_, ?_⟩
  · intro a ha b hb'
    have h1 := hpts a ha
    have h2 := hpts b hb'
    simp only [faceOf]
    rw [sdiv_rdot, rdot_sub, h1, h2, sub_self, zero_div]
  · intro a ha q hq
    have h1 := hpts a ha
    simp only [faceOf]
    rw [sdiv_rdot, sdiv_rdot, h1]
    exact div_le_div_of_nonneg_right (ho.le q hq) hpos.le
  · intro a ha q hq
    have h1 := hpts a ha
    simp only [faceOf]
    rw [sdiv_rdot, sdiv_rdot, h1]
    exact div_lt_div_of_pos_right (ho.lt q hq) hpos

/-- **C24** One face per simplex, with the same three vertices, counter-clockwise around the outward normal, and with
the edges along the closed cycle of these vertices. -/
theorem C24_counter_clockwise {h : Hull ℝ} (hh : h.IsHull) {inHull : V3 ℝ → Bool} {p : Poly ℝ} (hp : mkPoly h inHull = .ok p) :
    p.faces.length = h.simplices.length ∧ ∀ (k : Nat) f, p.faces[k]? = some f → ∃ s a b c, h.simplices[k]? = some s ∧
      f.simplex = [a, b, c] ∧ List.Perm [a, b, c] [s.1, s.2.1, s.2.2] ∧ f.points = [h.pt a, h.pt b, h.pt c] ∧
      0 < rdot f.un (cross ((h.pt b).sub (h.pt a)) ((h.pt c).sub (h.pt a))) ∧
      f.edges.map (fun e => (e.simplex, e.start, e.fin)) =
        [((a, b), h.pt a, h.pt b), ((b, c), h.pt b, h.pt c), ((c, a), h.pt c, h.pt a)] ∧
      ∀ e ∈ f.edges, e.vector = e.fin.sub e.start ∧ e.length = Real.sqrt (rdot e.vector e.vector) := by
  obtain ⟨sm, tf, τ, hb⟩ := built_of_ok hh hp
  refine ⟨hb.length, ?_⟩
  intro k f hk
  obtain ⟨s, nb, hs, -, hord, ho, rfl⟩ := face_of_built hb hk
  refine ⟨s, (sm k).1, (sm k).2.1, (sm k).2.2, hs, rfl, ?_, rfl, ?_, ?_, ?_⟩
  · rcases hord with he | he
    · rw [he]
    · rw [he]; exact List.Perm.cons _ (List.Perm.swap _ _ _)
  · show 0 < rdot ((h.normal (sm k)).sdiv _) (h.normal (sm k))
    rw [sdiv_rdot]
    exact div_pos (rdot_self_pos ho.ne) (norm_pos ho.ne)
  · rfl
  · intro e he
    simp only [faceOf, cyc, List.map_cons, List.map_nil, List.mapIdx_cons, List.mapIdx_nil, List.mem_cons, List.not_mem_nil, or_false] at he
    rcases he with rfl | rfl | rfl <;> exact ⟨rfl, rfl⟩

/-- **C25** Every edge has a twin: an edge of a different face with start and end exchanged, whose twin is the edge
itself; and it is the only edge of the body between these two vertices in the opposite direction. -/
theorem C25_twins {h : Hull ℝ} (hh : h.IsHull) {inHull : V3 ℝ → Bool} {p : Poly ℝ} (hp : mkPoly h inHull = .ok p)
    {i j : Nat} {f : Face ℝ} {e : Edge ℝ} (hf : p.faces[i]? = some f) (he : f.edges[j]? = some e) :
    ∃ i' j' f' e', e.twin = some (i', j') ∧ p.faces[i']? = some f' ∧ f'.edges[j']? = some e' ∧ e'.twin = some (i, j) ∧
      i' ≠ i ∧ i' ∈ f.neighbors ∧ e.twinface = i' ∧ e'.start = e.fin ∧ e'.fin = e.start ∧
      e'.simplex = (e.simplex.2, e.simplex.1) ∧
      ∀ i'' j'' f'' e'', p.faces[i'']? = some f'' → f''.edges[j'']? = some e'' →
        e''.simplex = (e.simplex.2, e.simplex.1) → i'' = i' ∧ j'' = j' := by
  obtain ⟨sm, tf, τ, hb⟩ := built_of_ok hh hp
  have hE : p.edgeAt i j = some e := by unfold Poly.edgeAt; rw [hf]; exact he
  obtain ⟨s, pr, hs, hpr, rfl⟩ := (edge_of_built hb).mp hE
  have hmem := List.mem_of_getElem? hpr
  obtain ⟨hO, hU, hm, hinv⟩ := hb.twinface i s hs pr hmem
  obtain ⟨hτ1, hτ2⟩ := hb.twin i s hs j pr hpr
  obtain ⟨hne, t, ht, d1, d2⟩ := hO
  have hl := List.idxOf_lt_length_of_mem hm
  have hget : (cyc (sm (tf i pr)))[(cyc (sm (tf i pr))).idxOf (pr.2, pr.1)]? = some (pr.2, pr.1) := by
    rw [List.getElem?_eq_getElem hl, List.getElem_idxOf hl]
  have hE' := (edge_of_built hb (k := tf i pr) (j := (cyc (sm (tf i pr))).idxOf (pr.2, pr.1))).mpr ⟨t, (pr.2, pr.1), ht, hget, rfl⟩
  rw [hτ1] at hτ2
  simp only at hτ2
  rw [hτ2] at hE'
  obtain ⟨f', hf', he'⟩ := Option.bind_eq_some_iff.mp hE'
  obtain ⟨s2, nb, hs2, hnb, hord, ho, hfe⟩ := face_of_built hb hf
  rw [hs] at hs2
  cases hs2
  have hc := Hull.corner_of_cyc hmem
  have c1 := (Hull.corner_of_order hord pr.1).mp hc.1
  have c2 := (Hull.corner_of_order hord pr.2).mp hc.2
  have hpne : pr.1 ≠ pr.2 := fun e => Hull.pt_cyc_ne ho hmem (by rw [e])
  refine ⟨tf i pr, _, f', _, by rw [hτ1], hf', he', rfl, hne, ?_, rfl, rfl, rfl, rfl, ?_⟩
  · have : f.neighbors = nb := by rw [hfe]; rfl
    rw [this]
    exact (hh.neighbor i s nb hs hnb _).mpr ⟨hne, t, ht, pr.1, pr.2, hpne, c1, c2, d1, d2⟩
  · intro i'' j'' f'' e'' hf'' he'' hsim
    have hE'' : p.edgeAt i'' j'' = some e'' := by unfold Poly.edgeAt; rw [hf'']; exact he''
    obtain ⟨s'', pr'', hs'', hpr'', rfl⟩ := (edge_of_built hb).mp hE''
    have hpp : pr'' = (pr.2, pr.1) := hsim
    subst hpp
    have hmem'' := List.mem_of_getElem? hpr''
    obtain ⟨hord'', ho''⟩ := hb.order i'' s'' hs''
    have hi'' : i'' = tf i pr := by
      apply hU
      refine ⟨?_, s'', hs'', ?_, ?_⟩
      · rintro rfl
        rw [hs] at hs''
        cases hs''
        -- both directions in the same face
        obtain ⟨g1, g2, g3⟩ := Hull.outward_distinct ho
        have k1 : (sm i'').1 ≠ (sm i'').2.1 := fun e => g1 (by rw [e])
        have k2 : (sm i'').2.1 ≠ (sm i'').2.2 := fun e => g2 (by rw [e])
        have k3 : (sm i'').2.2 ≠ (sm i'').1 := fun e => g3 (by rw [e])
        simp only [cyc, List.mem_cons, List.not_mem_nil, or_false] at hmem hmem''
        rcases hmem with rfl | rfl | rfl <;> simp only [Prod.mk.injEq] at hmem'' <;> tauto
      · exact (Hull.corner_of_order hord'' _).mp (Hull.corner_of_cyc hmem'').2
      · exact (Hull.corner_of_order hord'' _).mp (Hull.corner_of_cyc hmem'').1
    subst hi''
    refine ⟨rfl, ?_⟩
    obtain ⟨q1, q2⟩ := List.getElem?_eq_some_iff.mp hpr''
    rw [← q2, (Hull.cyc_nodup ho'').idxOf_getElem]

/-- Hence the caches of a constructed body are shared between twins as assumed by the closed form of `get_gravity`. -/
theorem wellTwinned_of_hull {h : Hull ℝ} (hh : h.IsHull) {inHull : V3 ℝ → Bool} {p : Poly ℝ} (hp : mkPoly h inHull = .ok p) :
    p.WellTwinned := by
  intro i j e he
  obtain ⟨f, hf, hfe⟩ := Option.bind_eq_some_iff.mp he
  obtain ⟨i', j', f', e', h1, h2, h3, h4, h5, -⟩ := C25_twins hh hp hf hfe
  refine ⟨i', j', e', h1, ?_, h4, h5⟩
  unfold Poly.edgeAt
  rw [h2]
  exact h3

/-- no exception of the edge integral is a `TypeError` -/
theorem edgeIntegral_not_type {S : Type} [Arith S] (e : Edge S) (obs : V3 S) (gr : Bool) : edgeIntegral e obs gr ≠ .error .typeError := by
  have hn : ∀ a b : S, numbaDiv a b ≠ .error .typeError := by
    intro a b; unfold numbaDiv; split <;> simp
  have hl : ∀ (cj : S) (Lj : V3 S) (lj : S) (Rj : V3 S) (rj b2 bj : S), lineIntegralAlongEdge cj Lj lj Rj rj b2 bj gr ≠ .error .typeError := by
    intro cj Lj lj Rj rj b2 bj h
    unfold lineIntegralAlongEdge at h
    simp only [bind, Except.bind, pure, Except.pure] at h
    split at h
    · split at h
      · next h' => cases h; exact hn _ _ h'
      · split at h <;> cases h
    · split at h
      · next h' => cases h; exact hn _ _ h'
      · split at h
        · split at h
          · next h' => cases h; exact hn _ _ h'
          · cases h
        · cases h
  intro h
  unfold edgeIntegral at h
  simp only [bind, Except.bind, pure, Except.pure] at h
  split at h
  · next h' => cases h; exact hl _ _ _ _ _ _ _ h'
  · cases h

/-- neither is one of the solid angle -/
theorem omegaValue_not_type {S : Type} [Arith S] (f : Face S) (obs : V3 S) (gr : Bool) : omegaValue f obs gr ≠ .error .typeError := by
  intro h
  unfold omegaValue at h
  split at h
  · unfold omegaKernel at h
    simp only [bind, Except.bind, pure, Except.pure] at h
    split at h
    · next h' =>
      cases h
      refine foldlM_not_type ?_ _ _ h'
      rintro ⟨w, dw⟩ i hc
      simp only at hc
      split at hc
      · next h2 =>
        cases hc
        unfold getAngle at h2
        split at h2
        · cases h2
        · simp only [bind, Except.bind, pure, Except.pure] at h2
          split at h2
          · next h3 => cases h2; unfold pyAcos at h3; split at h3 <;> cases h3
          · split at h2 <;> cases h2
      · split at hc
        · split at hc
          · next h2 =>
            cases hc
            unfold getDangle at h2
            simp only [bind, Except.bind, pure, Except.pure] at h2
            split at h2
            · next h3 => cases h2; unfold pySqrt at h3; split at h3 <;> cases h3
            · split at h2
              · cases h2
              · split at h2 <;> cases h2
          · cases hc
        · cases hc
    · cases h
  · cases h
where
  foldlM_not_type {α β : Type} {f : β → α → Except PyErr β} (hf : ∀ b a, f b a ≠ .error .typeError) :
      ∀ (l : List α) (b : β), l.foldlM f b ≠ .error .typeError := by
    intro l
    induction l with
    | nil => intro b h; cases h
    | cons a l ih =>
      intro b h
      rw [List.foldlM_cons] at h
      simp only [bind, Except.bind] at h
      split at h
      · next h' => cases h; exact hf _ _ h'
      · exact ih _ h

theorem facesValue_not_type {S : Type} [Arith S] {p : Poly S} (hw : p.WellTwinned) (obs : V3 S) (ρ Gc : S) (gr : Bool) (fs : List (Face S)) :
    ∀ i G T, (∀ k, fs[k]? = p.faces[i + k]?) → facesValue p obs ρ Gc gr i fs G T ≠ .error .typeError := by
  induction fs with
  | nil => intro i G T _ h; cases h
  | cons f fs ih =>
    intro i G T hfs h
    have hf : p.faces[i]? = some f := by have := hfs 0; simpa using this.symm
    simp only [facesValue] at h
    split at h
    · next h' =>
      cases h
      unfold faceValue at h'
      split at h'
      · next h2 => cases h'; exact omegaValue_not_type _ _ _ h2
      · split at h'
        · next h2 =>
          cases h'
          have key : ∀ (es : List (Edge S)), (∀ e ∈ es, e ∈ f.edges) → edgesValue p obs gr i es ≠ .error .typeError := by
            intro es
            induction es with
            | nil => intro _ h; cases h
            | cons e es ih2 =>
              intro hes h
              simp only [edgesValue] at h
              split at h
              · next h3 =>
                cases h
                obtain ⟨j, hj⟩ := List.getElem?_of_mem (hes e (by simp))
                obtain ⟨i', j', e', t1, t2, -, -⟩ := hw i j e (by unfold Poly.edgeAt; rw [hf]; exact hj)
                unfold edgeValue at h3
                rw [t1] at h3
                simp only [t2] at h3
                split at h3
                · rcases hei : edgeIntegral e' obs gr with x | v
                  · rw [hei] at h3; cases h3; exact edgeIntegral_not_type _ _ _ hei
                  · rw [hei] at h3; cases h3
                · exact edgeIntegral_not_type _ _ _ h3
              · split at h
                · next h3 => cases h; exact ih2 (fun e he => hes e (by simp [he])) h3
                · cases h
          exact key f.edges (fun _ h => h) h2
        · unfold fieldOfEdges at h'
          split at h' <;> cases h'
    · exact ih (i + 1) _ _ (fun k => by have := hfs (k + 1); rw [List.getElem?_cons_succ] at this; rw [this]; congr 1; omega) h

/-- **C25**, last part: a call on a constructed body never raises the `TypeError` for a missing twin. -/
theorem C25_no_twin_error {h : Hull ℝ} (hh : h.IsHull) {inHull : V3 ℝ → Bool} {p : Poly ℝ} (hp : mkPoly h inHull = .ok p)
    (c : Call ℝ) : c.onNew p ≠ .error .typeError := by
  have hw := wellTwinned_of_hull hh hp
  unfold Call.onNew Call.run
  rw [getGravity_closed hw clean_fresh]
  exact facesValue_not_type hw _ _ _ _ p.faces 0 _ _ (fun k => by rw [Nat.zero_add])

/-- **C26** For a solid body the construction does not consult `_in_hull` and does not enter the search loop: it
returns the same polyhedron whatever `_in_hull` answers. -/
theorem C26_search_not_entered {h : Hull ℝ} (hh : h.IsHull) (inHull inHull' : V3 ℝ → Bool) :
    ∃ p, mkPoly h inHull = .ok p ∧ mkPoly h inHull' = .ok p := by
  have key : ∀ (nbs : List (List Nat)) k (sims : List (Nat × Nat × Nat)), k + nbs.length ≤ h.simplices.length →
      (∀ n, k ≤ n → sims[n]? = h.simplices[n]?) →
      buildFaces h.points inHull (meanPoint h.points h.vertices) k nbs sims =
        buildFaces h.points inHull' (meanPoint h.points h.vertices) k nbs sims := by
    intro nbs
    induction nbs with
    | nil => intro k sims _ _; rfl
    | cons nb nbs ih =>
      intro k sims hl he
      simp only [List.length_cons] at hl
      have hk : k < h.simplices.length := by omega
      have hs : h.simplices[k]? = some h.simplices[k] := List.getElem?_eq_getElem hk
      have hg : sims.getD k (0, 0, 0) = h.simplices[k] := Hull.getD_of_some (by rw [he k le_rfl, hs])
      obtain ⟨s1, -, -, o1⟩ := hh.orient_ok inHull (List.getElem_mem hk)
      obtain ⟨s2, -, -, o2⟩ := hh.orient_ok inHull' (List.getElem_mem hk)
      have hind : orient h.points inHull (meanPoint h.points h.vertices) h.simplices[k] =
          orient h.points inHull' (meanPoint h.points h.vertices) h.simplices[k] := by
        have g : ∀ ih : V3 ℝ → Bool, ∀ r, orient h.points ih (meanPoint h.points h.vertices) h.simplices[k] = .ok r →
            orient h.points ih (meanPoint h.points h.vertices) h.simplices[k] =
              orient h.points (fun _ => true) (meanPoint h.points h.vertices) h.simplices[k] := by
          intro ih r hr
          unfold orient at hr ⊢
          simp only at hr ⊢
          split at hr
          · cases hr
          · next hc => simp only [hc]; simp
        rw [g _ _ o1, g _ _ o2]
      unfold buildFaces
      rw [hg, hind, o2]
      simp only [bind, Except.bind]
      have := ih (k + 1) (sims.set k s2) (by omega) (fun n hn => by
        rw [List.getElem?_set_ne (by omega)]; exact he n (by omega))
      rw [this]
  obtain ⟨p, hp⟩ := hull_mkPoly_ok hh inHull
  refine ⟨p, hp, ?_⟩
  rw [← hp]
  unfold mkPoly
  simp only
  rw [key h.neighbors 0 h.simplices (by rw [hh.rows]; omega) (fun n _ => rfl)]

/-- **C26**, second half: for a set of points whose centroid is in the plane of the first triangle and is judged outside
of the hull, construction enters the search, and raises `NameError`. -/
theorem C26_search_raises {h : Hull ℝ} {inHull : V3 ℝ → Bool} {s : Nat × Nat × Nat} {ss : List (Nat × Nat × Nat)}
    (hs : h.simplices = s :: ss) (hl : h.neighbors.length = h.simplices.length)
    (hd : rdot (cross ((h.pt s.2.1).sub (h.pt s.1)) ((h.pt s.2.2).sub (h.pt s.1))) ((meanPoint h.points h.vertices).sub (h.pt s.1)) = 0)
    (hin : inHull (meanPoint h.points h.vertices) = false) : mkPoly h inHull = .error .nameError := by
  unfold mkPoly
  rw [if_neg (by rw [hl]; simp)]
  rcases hn : h.neighbors with _ | ⟨nb, nbs⟩
  · rw [hn, hs] at hl; simp at hl
  · simp only [bind, Except.bind]
    unfold buildFaces
    rw [hs]
    have : orient h.points inHull (meanPoint h.points h.vertices) s = .error .nameError := by
      unfold orient
      have e1 : ((rdot (cross ((h.pt s.2.1).sub (h.pt s.1)) ((h.pt s.2.2).sub (h.pt s.1)))
        ((meanPoint h.points h.vertices).sub (h.pt s.1))) ==. (0 : ℝ)) = true := by rw [r_eq]; exact hd
      simp only [Hull.pt, r_dot, r_zero] at e1 ⊢
      rw [e1, hin]
      rfl
    simp only [List.getD_cons_zero, this, bind, Except.bind]

/-- a concrete solid body: the construction of the unit tetrahedron succeeds with four faces, and reorients the
simplices the library returned clockwise -/
example : ∃ p, mkPoly tetra (fun _ => false) = .ok p ∧ p.faces.length = 4 := by
  obtain ⟨p, hp⟩ := hull_mkPoly_ok tetra_isHull (fun _ => false)
  exact ⟨p, hp, (C24_counter_clockwise tetra_isHull hp).1⟩

example : ∃ p f e, mkPoly tetra (fun _ => false) = .ok p ∧ p.faces[0]? = some f ∧ f.edges[0]? = some e := by
  obtain ⟨p, hp⟩ := hull_mkPoly_ok tetra_isHull (fun _ => false)
  obtain ⟨hl, hc⟩ := C24_counter_clockwise tetra_isHull hp
  have h0 : 0 < p.faces.length := by rw [hl]; decide
  obtain ⟨s, a, b, c, -, -, -, -, -, he, -⟩ := hc 0 _ (List.getElem?_eq_getElem h0)
  have : 0 < (p.faces[0]).edges.length := by
    have := congrArg List.length he
    simp at this
    omega
  exact ⟨p, _, _, hp, List.getElem?_eq_getElem h0, List.getElem?_eq_getElem this⟩

/-- a flat "hull": four points of a plane -/
def flatHull : Hull ℝ where
  points := [⟨0, 0, 0⟩, ⟨1, 0, 0⟩, ⟨0, 1, 0⟩, ⟨1, 1, 0⟩]
  vertices := [0, 1, 2, 3]
  simplices := [(0, 1, 2), (1, 2, 3)]
  neighbors := [[1], [0]]

example : mkPoly flatHull (fun _ => false) = .error .nameError := by
  refine C26_search_raises (s := (0, 1, 2)) (ss := [(1, 2, 3)]) rfl rfl ?_ rfl
  simp [flatHull, rdot, cross, Hull.pt, at3, meanPoint, V3.sub, V3.add, V3.sdiv, V3.zeros]

end
end Geec
