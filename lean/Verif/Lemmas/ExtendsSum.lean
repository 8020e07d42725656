import Verif.Lemmas.Extends
import Verif.Lemmas.PreciseLine
import Verif.Lemmas.TensorFace
/-
A whole query in an arithmetic that agrees with the real numbers where the operations are defined.
-/
namespace Geec
open Arith
noncomputable section

/-- no edge has the station at its exceptional place -/
def Hull.Tame (h : Hull ℝ) (s : V3 ℝ) : Prop :=
  ∀ t ∈ h.simplices, ∀ i j, Corner t i → Corner t j → i ≠ j → Extends.TameEdge s (h.pt i) (h.pt j)

/-- the station is no corner of the body -/
def Hull.OffCorners (h : Hull ℝ) (s : V3 ℝ) : Prop := ∀ t ∈ h.simplices, ∀ i, Corner t i → h.pt i ≠ s

/-- no edge that is computed (rather than copied from the twin edge of an earlier face) has the station at its exceptional place -/
def Poly.Tame (p : Poly ℝ) (s : V3 ℝ) : Prop :=
  ∀ i j e i' j', p.edgeAt i j = some e → e.twin = some (i', j') → i ≤ i' →
    Extends.TameEdge s e.start e.fin ∧ (vlen (e.fin.sub e.start) = vlen (e.fin.sub s) → repsilon < vlen (e.fin.sub s))

theorem Hull.Tame.poly {h : Hull ℝ} (hh : h.IsHull) {inHull : V3 ℝ → Bool} {p : Poly ℝ} (hp : mkPoly h inHull = .ok p) {s : V3 ℝ} (ht : h.Tame s) :
    p.Tame s := by
  intro i j e i' j' he _ _
  obtain ⟨t, ht', ⟨a, ha, ea⟩, b, hb, eb⟩ := edge_start_corner hh hp he
  have pr := edge_proper hh hp he
  have hm := List.mem_of_getElem? ht'
  have hab : a ≠ b := by rintro rfl; exact pr.ne (ea.trans eb.symm)
  rw [ea, eb]
  refine ⟨ht t hm a b ha hb hab, fun h0 => (ht t hm b a hb ha hab.symm ?_).1⟩
  rw [← h0, ← vlen_neg]
  congr 1
  exact V3.ext' (by simp) (by simp) (by simp)

namespace Extends
variable {S : Type} [Arith S] {ι : ℝ → S} {h : Hull ℝ} {inHull : V3 ℝ → Bool} {p : Poly ℝ} {s : V3 ℝ} {gr : Bool}

omit [Arith S] in
theorem edgeAt (p : Poly ℝ) (i j : Nat) : (p.map ι).edgeAt i j = (p.edgeAt i j).map (Edge.map ι) := by
  unfold Poly.edgeAt Poly.map
  simp only [List.getElem?_map]
  rcases p.faces[i]? with _ | f
  · rfl
  · simp only [Option.map_some, Option.bind_some, Face.map, List.getElem?_map]

omit [Arith S] in
theorem wellTwinned (hw : p.WellTwinned) : (p.map ι).WellTwinned := by
  intro i j e he
  rw [edgeAt, Option.map_eq_some_iff] at he
  obtain ⟨e0, he0, rfl⟩ := he
  obtain ⟨i', j', e', h1, h2, h3, h4⟩ := hw i j e0 he0
  exact ⟨i', j', e'.map ι, h1, by rw [edgeAt, h2]; rfl, h3, h4⟩

theorem hullEdge (E : Extends ι) (hh : h.IsHull) (hp : Geec.mkPoly h inHull = .ok p) (hs : h.OffCorners s) (ht : gr = false → p.Tame s)
    {i j i' j' : Nat} {e : Edge ℝ} (he : p.edgeAt i j = some e) (htw : e.twin = some (i', j')) (hi : i ≤ i') :
    Geec.edgeIntegral (e.map ι) (s.map ι) gr = (Geec.edgeIntegral e s gr).map (pairMap ι) := by
  obtain ⟨t, ht', ⟨a, ha, ea⟩, b, hb, eb⟩ := edge_start_corner hh hp he
  have pr := edge_proper hh hp he
  have hm := List.mem_of_getElem? ht'
  exact E.edgeIntegral pr.vector pr.length (by rw [ea]; exact hs t hm a ha) (by rw [eb]; exact hs t hm b hb) pr.ne
    fun hg => ht hg i j e i' j' he htw hi

theorem pairNeg (E : Extends ι) (v : V3 ℝ × Option (M3 ℝ)) : Geec.pairNeg (pairMap ι v) = pairMap ι (Geec.pairNeg v) := by
  obtain ⟨a, b⟩ := v
  cases b <;> simp only [Geec.pairNeg, pairMap, E.vneg, Option.map_none, Option.map_some, E.mneg]

theorem edgeValue (E : Extends ι) (hh : h.IsHull) (hp : Geec.mkPoly h inHull = .ok p) (hs : h.OffCorners s) (ht : gr = false → p.Tame s)
    {i j : Nat} {e : Edge ℝ} (he : p.edgeAt i j = some e) :
    Geec.edgeValue (p.map ι) (s.map ι) gr i (e.map ι) = (Geec.edgeValue p s gr i e).map (pairMap ι) := by
  obtain ⟨i', j', e', h1, h2, h3, h4⟩ := wellTwinned_of_hull hh hp i j e he
  have e1 : (e.map ι).twin = some (i', j') := h1
  have e2 : (p.map ι).edgeAt i' j' = some (e'.map ι) := by rw [edgeAt, h2]; rfl
  simp only [Geec.edgeValue, e1, e2, h1, h2]
  split
  · next hlt =>
    rw [E.hullEdge hh hp hs ht h2 h3 hlt.le]
    rcases Geec.edgeIntegral e' s gr with x | x
    · rfl
    · simp only [Except.map, E.pairNeg]
  · next hlt => exact E.hullEdge hh hp hs ht he h1 (not_lt.mp hlt)

theorem edgesValue (E : Extends ι) (hh : h.IsHull) (hp : Geec.mkPoly h inHull = .ok p) (hs : h.OffCorners s) (ht : gr = false → p.Tame s)
    {i : Nat} (es : List (Edge ℝ)) (he : ∀ e ∈ es, ∃ j, p.edgeAt i j = some e) :
    Geec.edgesValue (p.map ι) (s.map ι) gr i (es.map (Edge.map ι)) = (Geec.edgesValue p s gr i es).map (List.map (pairMap ι)) := by
  induction es with
  | nil => rfl
  | cons e es ih =>
    obtain ⟨j, hj⟩ := he e (by simp)
    simp only [List.map_cons, Geec.edgesValue, E.edgeValue hh hp hs ht hj, ih (fun e h => he e (by simp [h]))]
    rcases Geec.edgeValue p s gr i e with x | x
    · rfl
    · rcases Geec.edgesValue p s gr i es with y | y <;> rfl

theorem sumPqr (E : Extends ι) (vs : List (V3 ℝ × Option (M3 ℝ))) : ∀ a : V3 ℝ,
    Geec.sumPqr (vs.map (pairMap ι)) (a.map ι) = (Geec.sumPqr vs a).map ι := by
  induction vs with
  | nil => intro a; rfl
  | cons v vs ih => intro a; simp only [List.map_cons, Geec.sumPqr, pairMap, E.vadd]; exact ih _

theorem getDz (E : Extends ι) (o : Option (M3 ℝ)) : (o.map (M3.map ι)).getD M3.zeros = (o.getD M3.zeros).map ι := by
  cases o
  · exact E.mzeros
  · rfl

theorem sumDpqr (E : Extends ι) (vs : List (V3 ℝ × Option (M3 ℝ))) : ∀ a : M3 ℝ,
    Geec.sumDpqr (vs.map (pairMap ι)) (a.map ι) = (Geec.sumDpqr vs a).map ι := by
  induction vs with
  | nil => intro a; rfl
  | cons v vs ih => intro a; simp only [List.map_cons, Geec.sumDpqr, pairMap, E.getDz, E.madd]; exact ih _

theorem height (E : Extends ι) (f : Face ℝ) (s : V3 ℝ) : (f.map ι).height (s.map ι) = ι (f.height s) := by
  simp only [Face.height, Face.map, E.at3, E.vsub, E.dot']

theorem omegaValue (E : Extends ι) (hh : h.IsHull) (hp : Geec.mkPoly h inHull = .ok p) {k : Nat} {f : Face ℝ} (hf : p.faces[k]? = some f) :
    Geec.omegaValue (f.map ι) (s.map ι) gr = (Geec.omegaValue f s gr).map fun r => (ι r.1, r.2.map ι) := by
  unfold Geec.omegaValue
  rw [E.height, E.abs', E.eps', E.lt']
  by_cases hd : repsilon < |f.height s|
  · have e1 : ((Arith.eps : ℝ) <. Arith.abs (f.height s)) = true := (r_lt _ _).mpr hd
    rw [e1, if_pos rfl, if_pos rfl, E.npSign]
    have h0 : f.height s ≠ 0 := by
      intro h0
      rw [h0, abs_zero] at hd
      exact absurd hd (not_lt.mpr repsilon_pos.le)
    refine E.omegaKernel _ _ ?_
    obtain ⟨t, ht, hpts, hperm, hn, -, -⟩ := face_facts hh hp hf
    obtain ⟨s1, s2, s3⟩ := hn.sides
    have key : ∀ a b : V3 ℝ, a ∈ [f.pa, f.pb, f.pc] → b ∈ [f.pa, f.pb, f.pc] → b.sub a ≠ V3.zeros →
        Arith.mnorm (Geec.cross (a.sub s) (b.sub s)) ≠ 0 := by
      intro a b ha hb hba
      have hx : Geec.cross (a.sub s) (b.sub s) = Geec.cross (a.sub s) (b.sub a) := by refine V3.ext' ?_ ?_ ?_ <;> simp <;> ring
      rw [hx]
      refine (vlen_pos fun h1 => h0 ?_).ne'
      refine height_of_line hh hp hf ha hb ?_ h1
      rintro rfl
      exact hba (by refine V3.ext' ?_ ?_ ?_ <;> simp)
    rw [hpts]
    intro i hi
    have hi : i < 3 := hi
    interval_cases i
    · exact key f.pa f.pb (by simp) (by simp) s1
    · exact key f.pb f.pc (by simp) (by simp) s2
    · rw [show (2 + 1) % [f.pa, f.pb, f.pc].length = 0 by simp]
      exact key f.pc f.pa (by simp) (by simp) s3
  · have e1 : ((Arith.eps : ℝ) <. Arith.abs (f.height s)) = false := by rw [← Bool.not_eq_true, r_lt]; exact hd
    rw [e1]
    simp only [Bool.false_eq_true, if_false, Except.map, E.zero', E.vzeros]

theorem faceValue (E : Extends ι) (hh : h.IsHull) (hp : Geec.mkPoly h inHull = .ok p) (hs : h.OffCorners s) (ht : gr = false → p.Tame s)
    (ρ Gc : ℝ) {k : Nat} {f : Face ℝ} (hf : p.faces[k]? = some f) :
    Geec.faceValue (p.map ι) (s.map ι) (ι ρ) (ι Gc) gr k (f.map ι) = (Geec.faceValue p s ρ Gc gr k f).map (answerMap ι) := by
  have he : (f.map ι).edges = f.edges.map (Edge.map ι) := rfl
  simp only [Geec.faceValue, E.omegaValue hh hp hf, he]
  rw [E.edgesValue hh hp hs ht f.edges (by
    intro e he
    obtain ⟨j, hj⟩ := List.mem_iff_getElem?.mp he
    exact ⟨j, by simp only [Poly.edgeAt, hf, Option.bind_some, hj]⟩)]
  rcases Geec.omegaValue f s gr with x | w
  · rfl
  · rcases Geec.edgesValue p s gr k f.edges with x | vs
    · rfl
    · rcases vs with _ | ⟨v, vs⟩
      · rfl
      · simp only [Except.map, List.map_cons, fieldOfEdges, E.height]
        have e1 : (f.map ι).un = f.un.map ι := rfl
        have e2 : (pairMap ι v).1 = v.1.map ι := rfl
        have e3 : (pairMap ι v).2 = v.2.map (M3.map ι) := rfl
        rw [e1, e2, e3, E.sumPqr, E.getDz, E.sumDpqr, E.faceField]

theorem facesValue (E : Extends ι) (hh : h.IsHull) (hp : Geec.mkPoly h inHull = .ok p) (hs : h.OffCorners s) (ht : gr = false → p.Tame s)
    (ρ Gc : ℝ) (fs : List (Face ℝ)) : ∀ i, (∀ j f, fs[j]? = some f → p.faces[i + j]? = some f) → ∀ G T,
    Geec.facesValue (p.map ι) (s.map ι) (ι ρ) (ι Gc) gr i (fs.map (Face.map ι)) (G.map ι) (T.map ι) =
      (Geec.facesValue p s ρ Gc gr i fs G T).map (answerMap ι) := by
  induction fs with
  | nil => intro i _ G T; rfl
  | cons f fs ih =>
    intro i hf G T
    have hf0 : p.faces[i]? = some f := hf 0 f rfl
    simp only [List.map_cons, Geec.facesValue, E.faceValue hh hp hs ht ρ Gc hf0]
    rcases Geec.faceValue p s ρ Gc gr i f with x | ⟨g, t⟩
    · rfl
    · simp only [Except.map, answerMap, E.vadd, E.madd]
      exact ih (i + 1) (fun j f' hj => by rw [show i + 1 + j = i + (j + 1) by omega]; exact hf (j + 1) f' hj) _ _

theorem onNew (E : Extends ι) (hh : h.IsHull) (hp : Geec.mkPoly h inHull = .ok p) (c : Call ℝ) (hs : h.OffCorners c.obs)
    (ht : c.gradient = false → p.Tame c.obs) : (c.map ι).onNew (p.map ι) = (c.onNew p).map (answerMap ι) := by
  have hw := wellTwinned_of_hull hh hp
  rw [onNew_closed hw, onNew_closed (wellTwinned hw), E.vzeros, E.mzeros]
  exact E.facesValue hh hp hs ht c.density c.Gc p.faces 0 (fun j f hj => by rw [Nat.zero_add]; exact hj) _ _

end Extends
end
end Geec
