import Verif.Lemmas.Sim
/-
A call that returns leaves no cached value behind; histories of calls.
-/
namespace Geec
open Arith
variable {S : Type} [Arith S]
set_option linter.unusedSectionVars false

/-- edge `j` of face `i` exists -/
def Poly.HasEdge (p : Poly S) (i j : Nat) : Prop :=
  ∃ f e, p.faces[i]? = some f ∧ f.edges[j]? = some e

/-- every twin reference designates an edge of the same polyhedron -/
def Poly.TwinsInside (p : Poly S) : Prop :=
  ∀ (i : Nat) (f : Face S), p.faces[i]? = some f → ∀ (j : Nat) (e : Edge S), f.edges[j]? = some e →
    ∀ t : Nat × Nat, e.twin = some t → p.HasEdge t.1 t.2

/-- nothing is cached outside the edges and faces of `p` -/
structure Within (p : Poly S) (m : Mem S) : Prop where
  edge : ∀ i j, ¬ p.HasEdge i j → m.edge i j = ⟨none, none⟩
  face : ∀ i, p.faces.length ≤ i → m.face i = ⟨none, none, none, none, none, none, (m.face i).g, (m.face i).tensor⟩

def Pres (P : Mem S → Prop) {α : Type} (a : Act S α) : Prop := ∀ m, P m → P (a m).2

theorem pres_pure {P : Mem S → Prop} {α : Type} (x : α) : Pres P (Act.pure x : Act S α) := fun _ h => h

theorem pres_bind {P : Mem S → Prop} {α β : Type} {a : Act S α} {f : α → Act S β}
    (ha : Pres P a) (hf : ∀ x, Pres P (f x)) : Pres P (Act.bind a f) := by
  intro m h
  have h1 := ha m h
  unfold Act.bind
  rcases hm : a m with ⟨r, m1⟩
  rw [hm] at h1
  cases r with
  | error e => exact h1
  | ok x => exact hf x _ h1

section
variable {p : Poly S}

theorem Within.setEdge {m : Mem S} (h : Within p m) {i j : Nat} (hij : p.HasEdge i j) (c : EdgeC) :
    Within p (m.setEdge i j c) := by
  refine ⟨fun i' j' hn => ?_, h.face⟩
  simp only [Mem.setEdge]
  by_cases hh : i' = i ∧ j' = j
  · exact absurd (hh.1 ▸ hh.2 ▸ hij) hn
  · simp only [hh, if_false]; exact h.edge i' j' hn

theorem Within.newEdgePqr {m : Mem S} (h : Within p m) {i j : Nat} (hij : p.HasEdge i j) (v : V3 S) :
    Within p (m.newEdgePqr i j v) :=
  ⟨(h.setEdge hij _).edge, h.face⟩

theorem Within.newEdgeDpqr {m : Mem S} (h : Within p m) {i j : Nat} (hij : p.HasEdge i j)
    (v : Option (M3 S)) : Within p (m.newEdgeDpqr i j v) := by
  cases v with
  | none => exact h.setEdge hij _
  | some v => exact ⟨(h.setEdge hij _).edge, h.face⟩

theorem Within.setFace {m : Mem S} (h : Within p m) {i : Nat} (hi : i < p.faces.length) (c : FaceC S) :
    Within p (m.setFace i c) := by
  refine ⟨h.edge, fun i' hn => ?_⟩
  have : i' ≠ i := by omega
  simp only [Mem.setFace, this, if_false]
  exact h.face i' hn

theorem Within.setV {m : Mem S} (h : Within p m) (l : Nat) (v : V3 S) : Within p (m.setV l v) := ⟨h.edge, h.face⟩
theorem Within.setM {m : Mem S} (h : Within p m) (l : Nat) (v : M3 S) : Within p (m.setM l v) := ⟨h.edge, h.face⟩

theorem within_setTwin (i j : Nat) (tw : Option (Nat × Nat)) (ht : ∀ t, tw = some t → p.HasEdge t.1 t.2) :
    Pres (Within p) (setTwinPqr i j tw : Act S Unit) := by
  intro m h
  rcases tw with _ | ⟨i', j'⟩
  · exact h
  · have ht := ht _ rfl
    have h1 : Within p
        (match (m.edge i j).pqr with | some l => m.newEdgePqr i' j' (m.va l).neg | none => m) := by
      split
      · exact h.newEdgePqr ht _
      · exact h
    have key : ∀ n : Mem S, Within p n → Within p
        (match (n.edge i j).dpqr with | some l => n.newEdgeDpqr i' j' (some (n.ma l).neg) | none => n) := by
      intro n h1
      split
      · exact h1.newEdgeDpqr ht _
      · exact h1
    exact key _ h1

theorem within_edgeCompute {i j : Nat} {e : Edge S} (hij : p.HasEdge i j)
    (ht : ∀ t, e.twin = some t → p.HasEdge t.1 t.2) (obs : V3 S) (gr : Bool) :
    Pres (Within p) (edgeCompute i j e obs gr) := by
  intro m h
  unfold edgeCompute
  rcases (m.edge i j).pqr with _ | l
  · simp only
    rcases edgeIntegral e obs gr with err | ⟨a, b⟩
    · exact h
    · exact within_setTwin _ _ _ ht _ ((h.newEdgePqr hij _).newEdgeDpqr hij _)
  · exact h

theorem within_addPqr {i : Nat} (hi : i < p.faces.length) (j : Nat) :
    Pres (Within p) (addPqr i j : Act S Unit) := by
  intro m h
  unfold addPqr
  split
  · exact h.setV _ _
  · exact h
  · exact h.setFace hi _

theorem within_addDpqr {i : Nat} (hi : i < p.faces.length) (j : Nat) :
    Pres (Within p) (addDpqr i j : Act S Unit) := by
  intro m h
  unfold addDpqr
  split
  · exact h.setM _ _
  · exact h
  · exact h.setFace hi _

theorem within_faceEdges (ht : p.TwinsInside) {i : Nat} {f : Face S} (hf : p.faces[i]? = some f)
    (obs : V3 S) (gr : Bool) (es : List (Edge S)) : ∀ j, es = f.edges.drop j →
    Pres (Within p) (faceEdges i obs gr j es) := by
  have hi : i < p.faces.length := (List.getElem?_eq_some_iff.mp hf).1
  induction es with
  | nil => intro j _; exact pres_pure ()
  | cons e es ih =>
    intro j hj
    have he : f.edges[j]? = some e := by
      have : (f.edges.drop j)[0]? = some e := by rw [← hj]; rfl
      simpa using this
    have hes : es = f.edges.drop (j + 1) := by
      have := congrArg List.tail hj
      simpa using this
    refine pres_bind (within_edgeCompute ⟨f, e, hf, he⟩ (ht i f hf j e he) obs gr) fun _ => ?_
    refine pres_bind (within_addPqr hi j) fun _ => ?_
    refine pres_bind (within_addDpqr hi j) fun _ => ?_
    exact ih _ hes

theorem within_faceGravity (ht : p.TwinsInside) {i : Nat} {f : Face S} (hf : p.faces[i]? = some f)
    (obs : V3 S) (density Gc : S) (gr : Bool) : Pres (Within p) (faceGravity i f obs density Gc gr) := by
  have hi : i < p.faces.length := (List.getElem?_eq_some_iff.mp hf).1
  unfold faceGravity
  refine pres_bind (fun m h => h.setFace hi _) fun _ => ?_
  refine pres_bind (a := getSign i) (fun m h => ?_) fun _ => ?_
  · unfold getSign; split
    · exact h.setFace hi _
    · exact h
  refine pres_bind (a := getOmega i f obs gr) (fun m h => ?_) fun _ => ?_
  · unfold getOmega; split
    · exact h
    · exact h
    · simp only
      split
      · split
        · exact h.setFace hi _
        · exact (h.setFace hi _).setFace hi _
      · exact h.setFace hi _
  refine pres_bind (within_faceEdges ht hf obs gr f.edges 0 (by simp)) fun _ => ?_
  intro m h
  unfold faceFinish
  simp only
  split
  · split
    · exact h
    · exact h.setFace hi _
    · exact h.setFace hi _
  · exact h

theorem within_polyFaces (ht : p.TwinsInside) (obs : V3 S) (density Gc : S) (gr : Bool)
    (fs : List (Face S)) : ∀ i G T, fs = p.faces.drop i →
    Pres (Within p) (polyFaces obs density Gc gr i fs G T) := by
  induction fs with
  | nil => intro i G T _; exact pres_pure _
  | cons f fs ih =>
    intro i G T hi
    have hf : p.faces[i]? = some f := by
      have : (p.faces.drop i)[0]? = some f := by rw [← hi]; rfl
      simpa using this
    have hfs : fs = p.faces.drop (i + 1) := by
      have := congrArg List.tail hi
      simpa using this
    refine pres_bind (within_faceGravity ht hf obs density Gc gr) fun _ => ih _ _ _ hfs

theorem edgesReset_face (i : Nat) (es : List (Edge S)) : ∀ j (m : Mem S),
    (edgesReset i j es m).face = m.face := by
  induction es with
  | nil => intro j m; rfl
  | cons e es ih => intro j m; rw [edgesReset, ih]; rfl

theorem edgesReset_edge (i : Nat) (es : List (Edge S)) : ∀ j (m : Mem S) i' j',
    (edgesReset i j es m).edge i' j' =
      if i' = i ∧ j ≤ j' ∧ j' < j + es.length then ⟨none, none⟩ else m.edge i' j' := by
  induction es with
  | nil =>
    intro j m i' j'
    have : ¬ (i' = i ∧ j ≤ j' ∧ j' < j + 0) := by omega
    simp only [edgesReset, List.length_nil, this, if_false]
  | cons e es ih =>
    intro j m i' j'
    rw [edgesReset, ih, edgeReset]
    simp only [Mem.setEdge, List.length_cons]
    split <;> split <;> first | rfl | (split <;> first | rfl | omega) | omega

theorem polyReset_face (fs : List (Face S)) : ∀ i (m : Mem S) i',
    (polyReset i fs m).face i' =
      if i ≤ i' ∧ i' < i + fs.length then
        ⟨none, none, none, none, none, none, (m.face i').g, (m.face i').tensor⟩ else m.face i' := by
  induction fs with
  | nil =>
    intro i m i'
    have : ¬ (i ≤ i' ∧ i' < i + 0) := by omega
    simp only [polyReset, List.length_nil, this, if_false]
  | cons f fs ih =>
    intro i m i'
    rw [polyReset, ih]
    simp only [faceReset, edgesReset_face, Mem.setFace, List.length_cons]
    by_cases h : i' = i
    · subst h
      have h1 : ¬ (i' + 1 ≤ i' ∧ i' < i' + 1 + fs.length) := by omega
      have h2 : (i' ≤ i' ∧ i' < i' + (fs.length + 1)) := by omega
      simp [h1, h2]
    · by_cases h1 : i + 1 ≤ i' ∧ i' < i + 1 + fs.length
      · have h2 : (i ≤ i' ∧ i' < i + (fs.length + 1)) := by omega
        simp [h1, h2, h]
      · have h2 : ¬ (i ≤ i' ∧ i' < i + (fs.length + 1)) := by omega
        simp [h1, h2, h]

theorem polyReset_edge (fs : List (Face S)) : ∀ i (m : Mem S) i' j',
    (∃ f, fs[i' - i]? = some f ∧ i ≤ i' ∧ j' < f.edges.length) ∧
      (polyReset i fs m).edge i' j' = ⟨none, none⟩ ∨ (polyReset i fs m).edge i' j' = m.edge i' j' ∧
      ∀ f, i ≤ i' → fs[i' - i]? = some f → ¬ j' < f.edges.length := by
  induction fs with
  | nil => intro i m i' j'; right; simp [polyReset]
  | cons f fs ih =>
    intro i m i' j'
    rw [polyReset]
    rcases ih (i + 1) (faceReset i f m) i' j' with ⟨⟨f', h1, h2, h3⟩, h4⟩ | ⟨h1, h2⟩
    · left
      refine ⟨⟨f', ?_, by omega, h3⟩, h4⟩
      have : i' - i = (i' - (i + 1)) + 1 := by omega
      rw [this]; simpa using h1
    · rw [h1]
      simp only [faceReset, edgesReset_edge, Mem.setFace]
      by_cases hi : i' = i
      · subst hi
        by_cases hj : j' < f.edges.length
        · left; simp [hj]
        · right; simp [hj]; omega
      · right
        refine ⟨by simp [hi], ?_⟩
        intro f' h3 h4
        refine h2 f' (by omega) ?_
        have : i' - i = (i' - (i + 1)) + 1 := by omega
        rw [this] at h4; simpa using h4

theorem clean_polyReset {m : Mem S} (h : Within p m) : Clean (polyReset 0 p.faces m) := by
  have hf : ∀ i, (polyReset 0 p.faces m).face i =
      ⟨none, none, none, none, none, none, (m.face i).g, (m.face i).tensor⟩ := by
    intro i
    rw [polyReset_face]
    split
    · rfl
    · exact h.face i (by omega)
  refine ⟨?_, ?_, ?_, ?_, ?_, ?_, ?_⟩
  · intro i j
    rcases polyReset_edge p.faces 0 m i j with h1 | ⟨h1, h2⟩
    · exact h1.2
    · rw [h1]
      apply h.edge
      rintro ⟨f, e, hf, he⟩
      exact h2 f (by omega) (by simpa using hf) (List.getElem?_eq_some_iff.mp he).1
  all_goals intro i; rw [hf]

theorem within_of_clean {m : Mem S} (h : Clean m) : Within p m := by
  refine ⟨fun i j _ => h.edge i j, fun i _ => ?_⟩
  have h1 := h.dp1 i; have h2 := h.sign i; have h3 := h.omega i; have h4 := h.domega i
  have h5 := h.pqr i; have h6 := h.dpqr i
  rcases hc : m.face i with ⟨a1, a2, a3, a4, a5, a6, a7, a8⟩
  simp_all

/-- A call that returns leaves clean caches. -/
theorem clean_after (ht : p.TwinsInside) {m : Mem S} (h : Clean m) (obs : V3 S) (density Gc : S) (gr : Bool)
    {r : V3 S × M3 S} (hr : (getGravity p obs density Gc gr m).1 = .ok r) :
    Clean (getGravity p obs density Gc gr m).2 := by
  have h1 := within_polyFaces ht obs density Gc gr p.faces 0 V3.zeros M3.zeros (by simp) m (within_of_clean h)
  revert hr
  show (Act.bind _ _ m).1 = _ → Clean (Act.bind _ _ m).2
  unfold Act.bind
  rcases hh : polyFaces obs density Gc gr 0 p.faces V3.zeros M3.zeros m with ⟨_ | r', m1⟩ <;> rw [hh] at h1
  · intro hr; cases hr
  · intro hr
    exact clean_polyReset h1

end

/-! ### twin references produced by the construction -/

def TwinMap.Inside (faces : List (Face S)) (tw : TwinMap) : Prop :=
  ∀ i j t, tw.get i j = some t → ∃ f e, faces[t.1]? = some f ∧ f.edges[t.2]? = some e

theorem twinStep_inside {faces : List (Face S)} {tw : TwinMap} (h : tw.Inside faces) {i j : Nat} {e : Edge S}
    {f : Face S} (hf : faces[i]? = some f) (he : f.edges[j]? = some e) :
    (twinStep faces tw i j e).Inside faces := by
  unfold twinStep
  split
  · exact h
  · split
    · exact h
    · rename_i ft hft
      split
      · exact h
      · rename_i j' hj'
        intro a b t ht
        simp only at ht
        split at ht
        · cases ht; exact ⟨f, e, hf, he⟩
        · split at ht
          · cases ht
            have hlt : j' < ft.edges.length := by
              have := List.findIdx?_eq_some_iff_getElem.mp hj'
              exact this.1
            exact ⟨ft, _, hft, List.getElem?_eq_getElem hlt⟩
          · exact h a b t ht

theorem twinEdges_inside {faces : List (Face S)} {i : Nat} {f : Face S} (hf : faces[i]? = some f)
    (es : List (Edge S)) : ∀ j tw, tw.Inside faces → es = f.edges.drop j →
    (twinEdges faces i j es tw).Inside faces := by
  induction es with
  | nil => intro j tw h _; exact h
  | cons e es ih =>
    intro j tw h hj
    have he : f.edges[j]? = some e := by
      have : (f.edges.drop j)[0]? = some e := by rw [← hj]; rfl
      simpa using this
    have hes : es = f.edges.drop (j + 1) := by
      have := congrArg List.tail hj
      simpa using this
    exact ih _ _ (twinStep_inside h hf he) hes

theorem twinFaces_inside {faces : List (Face S)} (fs : List (Face S)) : ∀ i tw, tw.Inside faces →
    fs = faces.drop i → (twinFaces faces i fs tw).Inside faces := by
  induction fs with
  | nil => intro j tw h _; exact h
  | cons f fs ih =>
    intro i tw h hi
    have hf : faces[i]? = some f := by
      have : (faces.drop i)[0]? = some f := by rw [← hi]; rfl
      simpa using this
    have hfs : fs = faces.drop (i + 1) := by
      have := congrArg List.tail hi
      simpa using this
    exact ih _ _ (twinEdges_inside hf _ _ _ h (by simp)) hfs

theorem getEdgeTwin_inside (pts : List (V3 S)) (faces : List (Face S)) :
    (Poly.mk pts (getEdgeTwin faces)).TwinsInside := by
  have htw : (twinFaces faces 0 faces ⟨fun _ _ => none⟩).Inside faces :=
    twinFaces_inside faces 0 _ (fun i j t h => by cases h) (by simp)
  intro i f hf j e he t ht
  simp only [getEdgeTwin, List.getElem?_mapIdx, Option.map_eq_some_iff] at hf
  obtain ⟨f0, hf0, rfl⟩ := hf
  simp only [List.getElem?_mapIdx, Option.map_eq_some_iff] at he
  obtain ⟨e0, he0, rfl⟩ := he
  obtain ⟨f1, e1, h1, h2⟩ := htw i j t ht
  simp only [Poly.HasEdge, getEdgeTwin, List.getElem?_mapIdx, h1, Option.map_some, Option.some.injEq,
    exists_and_left]
  refine ⟨_, rfl, ?_⟩
  simp [h2]

theorem mkPoly_inside {h : Hull S} {inHull : V3 S → Bool} {p : Poly S} (hp : mkPoly h inHull = .ok p) :
    p.TwinsInside := by
  unfold mkPoly at hp
  split at hp
  · cases hp
  · simp only at hp
    rcases hb : buildFaces h.points inHull (meanPoint h.points h.vertices) 0 h.neighbors h.simplices with _ | fs
    · rw [hb] at hp; cases hp
    · rw [hb] at hp; cases hp
      exact getEdgeTwin_inside _ _

end Geec
