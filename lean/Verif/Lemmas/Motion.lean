import Verif.Spec.Motion
import Verif.Props.Hull
import Verif.Lemmas.RealKernel
/-
The construction and the gravity of a moved body.
-/
namespace Geec
open Arith
noncomputable section

namespace IsRotation
variable {R : M3 ℝ}

theorem r2_eq (h : IsRotation R) : R.r2 = cross R.r0 R.r1 := h.r2

theorem n2 (h : IsRotation R) : rdot R.r2 R.r2 = 1 := by
  rw [h.r2_eq, lagrange, h.n0, h.n1, rdot_comm R.r1 R.r0, h.o01]; ring

/-- expansion on the rows -/
theorem expand (h : IsRotation R) (a : V3 ℝ) :
    a = ((V3.smul (rdot R.r0 a) R.r0).add (V3.smul (rdot R.r1 a) R.r1)).add (V3.smul (rdot R.r2 a) R.r2) := by
  have hd := decomp R.r0 R.r1 a
  rw [← h.r2_eq, h.n2] at hd
  have e1 : rdot (cross a R.r1) R.r2 = rdot R.r0 a := by
    rw [h.r2_eq, lagrange, h.n1, rdot_comm R.r1 R.r0, h.o01, rdot_comm a]; ring
  have e2 : rdot (cross R.r0 a) R.r2 = rdot R.r1 a := by
    rw [h.r2_eq, lagrange, h.n0, h.o01, rdot_comm a]; ring
  rw [e1, e2, rdot_comm a] at hd
  rw [← hd]
  refine V3.ext' ?_ ?_ ?_ <;> simp

theorem rdot_apply (h : IsRotation R) (a b : V3 ℝ) : rdot (R.apply a) (R.apply b) = rdot a b := by
  conv_rhs => rw [h.expand a]
  simp only [M3.apply, rdot, add_x, add_y, add_z, smul_x, smul_y, smul_z]
  ring

theorem cross12 (h : IsRotation R) : cross R.r1 R.r2 = R.r0 := by
  have e : cross R.r1 (cross R.r0 R.r1) = (V3.smul (rdot R.r1 R.r1) R.r0).sub (V3.smul (rdot R.r0 R.r1) R.r1) := by
    refine V3.ext' ?_ ?_ ?_ <;> simp [rdot] <;> ring
  rw [h.r2_eq, e, h.n1, h.o01]
  refine V3.ext' ?_ ?_ ?_ <;> simp

theorem cross20 (h : IsRotation R) : cross R.r2 R.r0 = R.r1 := by
  have e : cross (cross R.r0 R.r1) R.r0 = (V3.smul (rdot R.r0 R.r0) R.r1).sub (V3.smul (rdot R.r0 R.r1) R.r0) := by
    refine V3.ext' ?_ ?_ ?_ <;> simp [rdot] <;> ring
  rw [h.r2_eq, e, h.n0, h.o01]
  refine V3.ext' ?_ ?_ ?_ <;> simp

theorem cross_apply (h : IsRotation R) (a b : V3 ℝ) : cross (R.apply a) (R.apply b) = R.apply (cross a b) := by
  refine V3.ext' ?_ ?_ ?_
  · show rdot R.r1 a * rdot R.r2 b - rdot R.r2 a * rdot R.r1 b = rdot R.r0 (cross a b)
    have := lagrange R.r1 R.r2 a b
    rw [h.cross12] at this
    rw [this]; ring
  · show rdot R.r2 a * rdot R.r0 b - rdot R.r0 a * rdot R.r2 b = rdot R.r1 (cross a b)
    have := lagrange R.r2 R.r0 a b
    rw [h.cross20] at this
    rw [this]; ring
  · show rdot R.r0 a * rdot R.r1 b - rdot R.r1 a * rdot R.r0 b = rdot R.r2 (cross a b)
    have := lagrange R.r0 R.r1 a b
    rw [← h.r2_eq] at this
    rw [this]; ring

end IsRotation

section lin
variable (R : M3 ℝ) (a b : V3 ℝ) (s : ℝ)
theorem apply_add : R.apply (a.add b) = (R.apply a).add (R.apply b) := by
  refine V3.ext' ?_ ?_ ?_ <;> simp [M3.apply, rdot_add]
theorem apply_sub : R.apply (a.sub b) = (R.apply a).sub (R.apply b) := by
  refine V3.ext' ?_ ?_ ?_ <;> simp [M3.apply, rdot_sub]
theorem apply_neg : R.apply a.neg = (R.apply a).neg := by
  refine V3.ext' ?_ ?_ ?_ <;> simp [M3.apply, rdot_neg]
theorem apply_smul : R.apply (V3.smul s a) = V3.smul s (R.apply a) := by
  refine V3.ext' ?_ ?_ ?_ <;> simp [M3.apply, rdot_smul]
theorem apply_sdiv : R.apply (a.sdiv s) = (R.apply a).sdiv s := by
  refine V3.ext' ?_ ?_ ?_ <;> simp [M3.apply, rdot_sdiv]
theorem apply_zeros : R.apply V3.zeros = V3.zeros := by
  refine V3.ext' ?_ ?_ ?_ <;> simp [M3.apply, rdot_zeros]
end lin

namespace Motion
variable {φ : Motion}

theorem app_sub (a b : V3 ℝ) : (φ.app a).sub (φ.app b) = φ.lin (a.sub b) := by
  unfold app lin
  rw [apply_sub]
  refine V3.ext' ?_ ?_ ?_ <;> simp <;> ring

theorem lin_zeros : φ.lin V3.zeros = V3.zeros := by
  unfold lin; rw [apply_zeros]; refine V3.ext' ?_ ?_ ?_ <;> simp

theorem rdot_lin (h : φ.Proper) (a b : V3 ℝ) : rdot (φ.lin a) (φ.lin b) = φ.k ^ 2 * rdot a b := by
  unfold lin; rw [smul_rdot, rdot_smul, h.rot.rdot_apply]; ring

theorem cross_lin (h : φ.Proper) (a b : V3 ℝ) : cross (φ.lin a) (φ.lin b) = V3.smul (φ.k ^ 2) (φ.R.apply (cross a b)) := by
  rw [← h.rot.cross_apply]
  unfold lin
  refine V3.ext' ?_ ?_ ?_ <;> simp <;> ring

theorem norm_lin (h : φ.Proper) (a : V3 ℝ) : Real.sqrt (rdot (φ.lin a) (φ.lin a)) = φ.k * Real.sqrt (rdot a a) := by
  rw [rdot_lin h, Real.sqrt_mul (sq_nonneg _), Real.sqrt_sq h.pos.le]

theorem app_injective (h : φ.Proper) {a b : V3 ℝ} (hab : φ.app a = φ.app b) : a = b := by
  have h1 : φ.lin (a.sub b) = V3.zeros := by
    rw [← app_sub, hab]; refine V3.ext' ?_ ?_ ?_ <;> simp
  have h2 : φ.k ^ 2 * rdot (a.sub b) (a.sub b) = 0 := by rw [← rdot_lin h, h1]; simp [rdot]
  have h3 : rdot (a.sub b) (a.sub b) = 0 := by
    rcases mul_eq_zero.mp h2 with h4 | h4
    · exact absurd h4 (pow_ne_zero _ h.pos.ne')
    · exact h4
  have h4 := rdot_self_eq_zero.mp h3
  have hx := congrArg V3.x h4
  have hy := congrArg V3.y h4
  have hz := congrArg V3.z h4
  simp only [sub_x, sub_y, sub_z, zeros_x, zeros_y, zeros_z] at hx hy hz
  exact V3.ext' (by linarith) (by linarith) (by linarith)

/-- the moved edge -/
def edge (φ : Motion) (e : Edge ℝ) : Edge ℝ :=
  { e with start := φ.app e.start, fin := φ.app e.fin, vector := φ.lin e.vector, length := φ.k * e.length }

/-- the moved face -/
def face (φ : Motion) (f : Face ℝ) : Face ℝ :=
  { f with points := f.points.map φ.app, un := φ.R.apply f.un, edges := f.edges.map φ.edge }

/-- the moved body -/
def poly (φ : Motion) (p : Poly ℝ) : Poly ℝ where
  points := p.points.map φ.app
  faces := p.faces.map φ.face

theorem at3_map {l : List (V3 ℝ)} {i : Nat} (hi : i < l.length) : at3 (l.map φ.app) i = φ.app (at3 l i) := by
  unfold at3
  rw [List.getD_eq_getElem?_getD, List.getD_eq_getElem?_getD, List.getElem?_map, List.getElem?_eq_getElem hi]
  rfl

theorem meanPoint_map {l : List (V3 ℝ)} {idx : List Nat} (hi : ∀ i ∈ idx, i < l.length) (h0 : idx ≠ []) :
    meanPoint (l.map φ.app) idx = φ.app (meanPoint l idx) := by
  have key : ∀ (idx : List Nat), (∀ i ∈ idx, i < l.length) → ∀ acc acc' : V3 ℝ, ∀ n : ℝ, acc' = (φ.lin acc).add (V3.smul n φ.t) →
      idx.foldl (fun a i => a.add (at3 (l.map φ.app) i)) acc' =
        (φ.lin (idx.foldl (fun a i => a.add (at3 l i)) acc)).add (V3.smul (n + idx.length) φ.t) := by
    intro idx
    induction idx with
    | nil => intro _ acc acc' n h; simpa using h
    | cons i idx ih =>
      intro hi acc acc' n h
      rw [List.foldl_cons, List.foldl_cons, ih (fun j hj => hi j (by simp [hj])) (acc.add (at3 l i)) _ (n + 1)]
      · simp only [List.length_cons, Nat.cast_add, Nat.cast_one]
        congr 2; ring
      · rw [h, at3_map (hi i (by simp))]
        unfold app lin
        rw [apply_add]
        refine V3.ext' ?_ ?_ ?_ <;> simp <;> ring
  have hn : (0 : ℝ) < idx.length := by exact_mod_cast List.length_pos_of_ne_nil h0
  unfold meanPoint
  rw [key idx hi V3.zeros V3.zeros 0 (by rw [lin_zeros]; refine V3.ext' ?_ ?_ ?_ <;> simp)]
  unfold app lin
  rw [apply_sdiv]
  simp only [r_ofNat]
  refine V3.ext' ?_ ?_ ?_ <;> simp <;> field_simp

theorem orient_map (hφ : φ.Proper) {pts : List (V3 ℝ)} {inHull' : V3 ℝ → Bool} {c : V3 ℝ} {s : Nat × Nat × Nat}
    (hs : ∀ i, Corner s i → i < pts.length) :
    orient (pts.map φ.app) inHull' (φ.app c) s = (orient pts (fun x => inHull' (φ.app x)) c s).map (fun r => (φ.R.apply r.1, r.2)) := by
  unfold orient
  rw [at3_map (hs s.1 (.inl rfl)), at3_map (hs s.2.1 (.inr (.inl rfl))), at3_map (hs s.2.2 (.inr (.inr rfl)))]
  simp only [app_sub, cross_lin hφ]
  set cr := cross ((at3 pts s.2.1).sub (at3 pts s.1)) ((at3 pts s.2.2).sub (at3 pts s.1))
  have hd : dot (V3.smul (φ.k ^ 2) (φ.R.apply cr)) (φ.lin (c.sub (at3 pts s.1))) = φ.k ^ 3 * dot cr (c.sub (at3 pts s.1)) := by
    simp only [r_dot]
    unfold lin
    rw [smul_rdot, rdot_smul, hφ.rot.rdot_apply]; ring
  have hk3 : 0 < φ.k ^ 3 := pow_pos hφ.pos 3
  have e1 : ((φ.k ^ 3 * dot cr (c.sub (at3 pts s.1))) ==. (Arith.zero : ℝ)) = (dot cr (c.sub (at3 pts s.1)) ==. (Arith.zero : ℝ)) := by
    rw [Bool.eq_iff_iff, r_eq, r_eq]; simp only [r_zero, mul_eq_zero]; exact or_iff_right hk3.ne'
  have e2 : ((Arith.zero : ℝ) <. (φ.k ^ 3 * dot cr (c.sub (at3 pts s.1)))) = ((Arith.zero : ℝ) <. dot cr (c.sub (at3 pts s.1))) := by
    rw [Bool.eq_iff_iff, r_lt, r_lt]; simp only [r_zero]; exact mul_pos_iff_of_pos_left hk3
  have hn : Arith.norm (V3.smul (φ.k ^ 2) (φ.R.apply cr)) = φ.k ^ 2 * Arith.norm cr := by
    simp only [r_norm]
    rw [smul_rdot, rdot_smul, hφ.rot.rdot_apply, ← mul_assoc, Real.sqrt_mul (mul_self_nonneg _), Real.sqrt_mul_self (sq_nonneg _)]
  have hu : (V3.smul (φ.k ^ 2) (φ.R.apply cr)).sdiv (φ.k ^ 2 * Arith.norm cr) = φ.R.apply (cr.sdiv (Arith.norm cr)) := by
    rw [apply_sdiv]
    have hk2 : φ.k ^ 2 ≠ 0 := (pow_pos hφ.pos 2).ne'
    refine V3.ext' ?_ ?_ ?_ <;> simp only [sdiv_x, sdiv_y, sdiv_z, smul_x, smul_y, smul_z] <;> rw [mul_div_mul_left _ _ hk2]
  have hu' : (V3.smul (φ.k ^ 2) (φ.R.apply cr)).neg.sdiv (φ.k ^ 2 * Arith.norm cr) = φ.R.apply (cr.neg.sdiv (Arith.norm cr)) := by
    have : cr.neg.sdiv (Arith.norm cr) = (cr.sdiv (Arith.norm cr)).neg := by
      refine V3.ext' ?_ ?_ ?_ <;> simp <;> ring
    rw [this, apply_neg, ← hu]
    refine V3.ext' ?_ ?_ ?_ <;> simp <;> ring
  rw [hd, e1, e2, hn, hu, hu']
  split
  · rfl
  · split <;> rfl

theorem mkEdge_map (hφ : φ.Proper) (a b : V3 ℝ) (pr : Nat × Nat) (tf : Nat) :
    mkEdge (φ.app a) (φ.app b) pr tf = φ.edge (mkEdge a b pr tf) := by
  unfold mkEdge edge
  simp only [app_sub, r_norm, norm_lin hφ]

theorem mapM_map_of {α β : Type} {l : List α} {f f' : α → Except PyErr β} {g : β → β} (h : ∀ a ∈ l, f' a = (f a).map g) :
    l.mapM f' = (l.mapM f).map (List.map g) := by
  induction l with
  | nil => rfl
  | cons a l ih =>
    rw [List.mapM_cons, List.mapM_cons, h a (by simp), ih (fun b hb => h b (by simp [hb]))]
    rcases f a with x | b
    · rfl
    · rcases l.mapM f with x | bs <;> rfl

theorem getEdges_map (hφ : φ.Proper) {pts : List (V3 ℝ)} {s : Nat × Nat × Nat} (hs : ∀ i, Corner s i → i < pts.length)
    (nb : List Nat) (ns : List (Nat × Nat × Nat)) :
    getEdges (pts.map φ.app) s nb ns = (getEdges pts s nb ns).map (List.map φ.edge) := by
  unfold getEdges
  apply mapM_map_of
  intro pr hpr
  have := Hull.corner_of_cyc (t := s) hpr
  rcases getTwinface nb ns pr with x | tf
  · rfl
  · simp only [bind, Except.bind]
    rw [at3_map (hs _ this.1), at3_map (hs _ this.2), mkEdge_map hφ]
    rfl

theorem buildFaces_map (hφ : φ.Proper) {pts : List (V3 ℝ)} {inHull' : V3 ℝ → Bool} {c : V3 ℝ} (nbs : List (List Nat)) :
    ∀ k (sims : List (Nat × Nat × Nat)), (∀ s ∈ sims, ∀ i, Corner s i → i < pts.length) → k + nbs.length ≤ sims.length →
    buildFaces (pts.map φ.app) inHull' (φ.app c) k nbs sims =
      (buildFaces pts (fun x => inHull' (φ.app x)) c k nbs sims).map (List.map φ.face) := by
  induction nbs with
  | nil => intro k sims _ _; rfl
  | cons nb nbs ih =>
    intro k sims hs hl
    simp only [List.length_cons] at hl
    have hk : k < sims.length := by omega
    have hget : sims.getD k (0, 0, 0) = sims[k] := Hull.getD_of_some (List.getElem?_eq_getElem hk)
    have hsk := hs _ (List.getElem_mem hk)
    unfold buildFaces
    rw [hget, orient_map hφ hsk]
    rcases ho : orient pts (fun x => inHull' (φ.app x)) c sims[k] with x | ⟨un, s⟩
    · rfl
    · have hcs : ∀ i, Corner s i → i < pts.length := by
        unfold orient at ho
        simp only at ho
        split at ho
        · cases ho
        · split at ho
          · cases ho
            intro i hi
            exact hsk i ((Hull.corner_of_order (.inr rfl) i).mp hi)
          · cases ho; exact hsk
      simp only [Except.map, bind, Except.bind, pure, Except.pure]
      rw [getEdges_map hφ hcs]
      generalize getEdges pts s nb (List.map (fun n => (sims.set k s).getD n (0, 0, 0)) nb) = z
      rcases z with x | es
      · rfl
      · simp only [Except.map]
        rw [ih (k + 1) (sims.set k s) (fun t ht i hi => by
          rcases List.mem_or_eq_of_mem_set ht with h1 | h1
          · exact hs t h1 i hi
          · subst h1; exact hcs i hi) (by rw [List.length_set]; omega)]
        generalize buildFaces pts (fun x => inHull' (φ.app x)) c (k + 1) nbs (sims.set k s) = z
        rcases z with x | fs
        · rfl
        · simp only [Except.map, List.map_cons]
          rw [at3_map (hcs _ (.inl rfl)), at3_map (hcs _ (.inr (.inl rfl))), at3_map (hcs _ (.inr (.inr rfl)))]
          rfl

theorem veq_map (hφ : φ.Proper) (a b : V3 ℝ) : veq (φ.app a) (φ.app b) = veq a b := by
  rw [Bool.eq_iff_iff, veq_iff, veq_iff]
  exact ⟨app_injective hφ, fun h => by rw [h]⟩

theorem findTwin_map (hφ : φ.Proper) (es : List (Edge ℝ)) (e : Edge ℝ) : findTwin (es.map φ.edge) (φ.edge e) = findTwin es e := by
  unfold findTwin
  rw [List.findIdx?_map]
  congr 1
  funext t
  simp only [Function.comp, edge, veq_map hφ]

theorem twinStep_map (hφ : φ.Proper) (fs : List (Face ℝ)) (tw : TwinMap) (i j : Nat) (e : Edge ℝ) :
    twinStep (fs.map φ.face) tw i j (φ.edge e) = twinStep fs tw i j e := by
  unfold twinStep
  rcases tw.get i j with _ | t
  · have : (φ.edge e).twinface = e.twinface := rfl
    simp only [this, List.getElem?_map]
    rcases fs[e.twinface]? with _ | ft
    · rfl
    · simp only [Option.map_some, face, findTwin_map hφ]
  · rfl

theorem twinEdges_map (hφ : φ.Proper) (fs : List (Face ℝ)) (i : Nat) (es : List (Edge ℝ)) : ∀ j tw,
    twinEdges (fs.map φ.face) i j (es.map φ.edge) tw = twinEdges fs i j es tw := by
  induction es with
  | nil => intro j tw; rfl
  | cons e es ih =>
    intro j tw
    simp only [List.map_cons, twinEdges, twinStep_map hφ, ih]

theorem twinFaces_map (hφ : φ.Proper) (fs gs : List (Face ℝ)) : ∀ i tw,
    twinFaces (fs.map φ.face) i (gs.map φ.face) tw = twinFaces fs i gs tw := by
  induction gs with
  | nil => intro j tw; rfl
  | cons f gs ih =>
    intro i tw
    simp only [List.map_cons, twinFaces, ih]
    have : (φ.face f).edges = f.edges.map φ.edge := rfl
    rw [this, twinEdges_map hφ]

theorem getEdgeTwin_map (hφ : φ.Proper) (fs : List (Face ℝ)) : getEdgeTwin (fs.map φ.face) = (getEdgeTwin fs).map φ.face := by
  unfold getEdgeTwin
  rw [twinFaces_map hφ]
  apply List.ext_getElem?
  intro i
  simp only [List.getElem?_mapIdx, List.getElem?_map, Option.map_map]
  rcases fs[i]? with _ | f
  · rfl
  · simp only [Option.map_some, Function.comp]
    congr 1
    simp only [face, Face.mk.injEq, true_and]
    apply List.ext_getElem?
    intro j
    simp only [List.getElem?_mapIdx, List.getElem?_map, Option.map_map]
    rcases f.edges[j]? with _ | e
    · rfl
    · rfl

/-- the polyhedron of a moved hull is the moved polyhedron -/
theorem mkPoly_map (hφ : φ.Proper) {h : Hull ℝ} (hh : h.IsHull) {inHull : V3 ℝ → Bool} {p : Poly ℝ} (hp : mkPoly h inHull = .ok p)
    (inHull' : V3 ℝ → Bool) : mkPoly (h.move φ) inHull' = .ok (φ.poly p) := by
  have hv : h.vertices ≠ [] := by
    intro h0
    obtain ⟨q, hq⟩ := hh.solid
    have := hh.vertexHull (interior_subset hq)
    rw [h0] at this
    simp at this
  obtain ⟨p', h1, h2⟩ := C26_search_not_entered hh inHull (fun x => inHull' (φ.app x))
  rw [hp] at h1
  cases h1
  have hn : ¬ h.simplices.length ≠ h.neighbors.length := by rw [hh.rows]; simp
  have hm : buildFaces (h.move φ).points inHull' (meanPoint (h.move φ).points (h.move φ).vertices) 0 (h.move φ).neighbors (h.move φ).simplices =
      (buildFaces h.points (fun x => inHull' (φ.app x)) (meanPoint h.points h.vertices) 0 h.neighbors h.simplices).map (List.map φ.face) := by
    show buildFaces (h.points.map φ.app) inHull' (meanPoint (h.points.map φ.app) h.vertices) 0 h.neighbors h.simplices = _
    rw [meanPoint_map hh.vertexIndex hv]
    exact buildFaces_map hφ h.neighbors 0 h.simplices hh.cornerIndex (by rw [hh.rows]; omega)
  unfold mkPoly at h2 ⊢
  rw [if_neg hn] at h2
  rw [if_neg (show ¬ (h.move φ).simplices.length ≠ (h.move φ).neighbors.length from hn)]
  simp only [bind, Except.bind] at h2 ⊢
  rw [hm]
  rcases hb : buildFaces h.points (fun x => inHull' (φ.app x)) (meanPoint h.points h.vertices) 0 h.neighbors h.simplices with x | fs
  · rw [hb] at h2; cases h2
  · rw [hb] at h2
    cases h2
    simp only [Except.map, pure, Except.pure, getEdgeTwin_map hφ]
    rfl

theorem edgeAt_map (p : Poly ℝ) (i j : Nat) : (φ.poly p).edgeAt i j = (p.edgeAt i j).map φ.edge := by
  unfold Poly.edgeAt poly
  simp only [List.getElem?_map]
  rcases p.faces[i]? with _ | f
  · rfl
  · simp only [Option.map_some, Option.bind_some, face, List.getElem?_map]

theorem wellTwinned_map {p : Poly ℝ} (hw : p.WellTwinned) : (φ.poly p).WellTwinned := by
  intro i j e he
  rw [edgeAt_map, Option.map_eq_some_iff] at he
  obtain ⟨e0, he0, rfl⟩ := he
  obtain ⟨i', j', e', h1, h2, h3, h4⟩ := hw i j e0 he0
  exact ⟨i', j', φ.edge e', h1, by rw [edgeAt_map, h2]; rfl, h3, h4⟩

end Motion
end
end Geec
