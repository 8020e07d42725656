import Verif.Lemmas.TubeError
import Verif.Props.EdgeLine
/-
C64, exactly: the tensor at a station in the thin tube of one edge is the gradient of the attraction only when the edge is flat.
-/
namespace Geec
open Arith MeasureTheory
noncomputable section

section
variable {h : Hull ℝ} {inHull : V3 ℝ → Bool} {p : Poly ℝ}

/-- Edge `j` of face `i` is computed (its twin, edge `j'` of face `i'`, belongs to a later face), the station is in its thin tube, and
clear of all other edges; it is in the plane of every face or farther than `eps` from it, and not on the surface. -/
structure Hull.InTube (h : Hull ℝ) (p : Poly ℝ) (s : V3 ℝ) (i j i' j' : Nat) (e : Edge ℝ) : Prop where
  edge : p.edgeAt i j = some e
  twin : e.twin = some (i', j')
  later : i < i'
  aside : cross (e.start.sub s) e.vector ≠ V3.zeros
  near : vlen (e.start.sub s) + rdot (e.start.sub s) e.vector / vlen e.vector < repsilon
  far : repsilon < vlen (e.start.sub s)
  others : ∀ k m e1, p.edgeAt k m = some e1 → (k, m) ≠ (i, j) → (k, m) ≠ (i', j') → ClearOf e1.start e1.fin s ∧ ClearOf e1.fin e1.start s
  planes : ∀ f ∈ p.faces, rdot f.un (f.pa.sub s) = 0 ∨ repsilon < |rdot f.un (f.pa.sub s)|
  off : s.toP ∉ frontier h.body

/-- the derivatives of the attraction as sums over the faces -/
theorem newton_slopes (hh : h.IsHull) (hp : mkPoly h inHull = .ok p) {s : V3 ℝ} (hoff : s.toP ∉ frontier h.body) (K : ℝ) :
    (∀ d, HasDerivAt (fun x => K * (attraction h.body (s.add (V3.smul x d))).x) (K * ∑ k : Fin p.faces.length, faceSlope p.faces[k] s ⟨1, 0, 0⟩ d) 0 ∧
      HasDerivAt (fun x => K * (attraction h.body (s.add (V3.smul x d))).y) (K * ∑ k : Fin p.faces.length, faceSlope p.faces[k] s ⟨0, 1, 0⟩ d) 0 ∧
      HasDerivAt (fun x => K * (attraction h.body (s.add (V3.smul x d))).z) (K * ∑ k : Fin p.faces.length, faceSlope p.faces[k] s ⟨0, 0, 1⟩ d) 0) ∧
    (∀ e d, ∑ k : Fin p.faces.length, faceSlope p.faces[k] s e d =
      (∑ k : Fin p.faces.length, faceSlope p.faces[k] s e ⟨1, 0, 0⟩) * d.x + (∑ k : Fin p.faces.length, faceSlope p.faces[k] s e ⟨0, 1, 0⟩) * d.y +
      (∑ k : Fin p.faces.length, faceSlope p.faces[k] s e ⟨0, 0, 1⟩) * d.z) ∧
    (∀ e d, ∑ k : Fin p.faces.length, faceSlope p.faces[k] s e d = ∑ k : Fin p.faces.length, faceSlope p.faces[k] s d e) := by
  have hk : ∀ k : Fin p.faces.length, IsNormal (p.faces[k]).un (p.faces[k]).pa (p.faces[k]).pb (p.faces[k]).pc ∧
      (rdot (p.faces[k]).un ((p.faces[k]).pa.sub s) = 0 → OffTriangle (p.faces[k]).pa (p.faces[k]).pb (p.faces[k]).pc s) := by
    intro k
    have hf : p.faces[(k : Nat)]? = some p.faces[k] := List.getElem?_eq_getElem k.2
    obtain ⟨-, -, -, -, hn, -, -⟩ := face_facts hh hp hf
    exact ⟨hn, offTriangle_of_plane hh hp hf hoff⟩
  refine ⟨?_, ?_, ?_⟩
  · intro d
    have hd : ∀ e : V3 ℝ, HasDerivAt (fun x => K * ∑ k : Fin p.faces.length, faceShare p.faces[k] (s.add (V3.smul x d)) e)
        (K * ∑ k : Fin p.faces.length, faceSlope p.faces[k] s e d) 0 := by
      intro e
      exact (HasDerivAt.fun_sum (fun k _ => faceShare_path' (hk k).1 (hk k).2 e d)).const_mul _
    have hsh := fun x => attraction_shares hh hp (s.add (V3.smul x d))
    simp only [(hsh _).1, (hsh _).2.1, (hsh _).2.2]
    exact ⟨hd _, hd _, hd _⟩
  · intro e d
    rw [Finset.sum_mul, Finset.sum_mul, Finset.sum_mul, ← Finset.sum_add_distrib, ← Finset.sum_add_distrib]
    exact Finset.sum_congr rfl fun k _ => faceSlope_linear' (hk k).1 (hk k).2 e d
  · intro e d
    rw [← sub_eq_zero, ← Finset.sum_sub_distrib]
    have : ∀ k : Fin p.faces.length, faceSlope p.faces[k] s e d - faceSlope p.faces[k] s d e =
        -rdot (cross e d) (loopJ (p.faces[k]).pa (p.faces[k]).pb (p.faces[k]).pc s) := fun k => faceSlope_skew' (hk k).1 (hk k).2 e d
    simp only [this, Finset.sum_neg_distrib, loops_cancel hh hp, neg_zero]

/-- the ends of an edge lie in the plane of its face -/
theorem edge_in_plane (hh : h.IsHull) (hp : mkPoly h inHull = .ok p) {k j : Nat} {f : Face ℝ} (hf : p.faces[k]? = some f) {e : Edge ℝ}
    (hfe : f.edges[j]? = some e) (s : V3 ℝ) : rdot f.un (e.fin.sub e.start) = 0 ∧ rdot f.un (e.start.sub s) = rdot f.un (f.pa.sub s) := by
  obtain ⟨t, -, hpts, -, hn, -, -⟩ := face_facts hh hp hf
  obtain ⟨-, -, a, b, c, e0, e1, e2, hE, -, hpts', hh0, hh1, hh2⟩ := edges_of_hull hh hp hf
  have ea : f.pa = h.pt a := by unfold Face.pa; rw [hpts']; rfl
  have eb : f.pb = h.pt b := by unfold Face.pb; rw [hpts']; rfl
  have ec : f.pc = h.pt c := by unfold Face.pc; rw [hpts']; rfl
  rw [← ea, ← eb] at hh0
  rw [← eb, ← ec] at hh1
  rw [← ec, ← ea] at hh2
  obtain ⟨o1, o2⟩ := hn.ortho3
  rw [hE] at hfe
  rcases j with _ | _ | _ | j <;> simp at hfe <;> subst hfe
  · rw [hh0.1, hh0.2]; exact ⟨hn.ortho1, rfl⟩
  · rw [hh1.1, hh1.2]; exact ⟨o1, hn.height2 s⟩
  · rw [hh2.1, hh2.2]; exact ⟨o2, hn.height3 s⟩

theorem add_zeros' (a : V3 ℝ) : a.add V3.zeros = a := by refine V3.ext' ?_ ?_ ?_ <;> simp

/-- an edge the station is clear of -/
theorem goodEdge (hh : h.IsHull) (hp : mkPoly h inHull = .ok p) {k j : Nat} {f : Face ℝ} (hf : p.faces[k]? = some f) {e : Edge ℝ}
    (hfe : f.edges[j]? = some e) {s : V3 ℝ} (c1 : ClearOf e.start e.fin s) (c2 : ClearOf e.fin e.start s) :
    ∃ D, edgeValue p s true k e = .ok (V3.smul (lineJ (e.start.sub s) (e.fin.sub e.start) + 0) (e.fin.sub e.start), D) ∧
      (rdot f.un (f.pa.sub s) ≠ 0 → D = some (gradRows ((edgeGrad (e.start.sub s) (e.fin.sub e.start)).add V3.zeros) ((e.fin.sub e.start).sdiv (vlen (e.fin.sub e.start))))) := by
  have hE : p.edgeAt k j = some e := by unfold Poly.edgeAt; rw [hf]; exact hfe
  obtain ⟨n1, n2⟩ := edge_in_plane hh hp hf hfe s
  rw [add_zero, add_zeros']
  by_cases h0 : rdot f.un (f.pa.sub s) = 0
  · obtain ⟨v, d, d', hv, hv'⟩ := C14_twin_value hh hp hE c1 c2 true
    have hpr := edge_proper hh hp hE
    obtain ⟨d2, hd2⟩ := edgeIntegral_clear hpr c1 true
    rw [hv] at hd2
    cases hd2
    rw [hpr.vector] at hv'
    exact ⟨d', hv', fun h => absurd h0 h⟩
  · exact ⟨_, edgeValue_off hh hp hE c1 c2 n1 (by rw [n2]; exact h0), fun _ => rfl⟩

/-- by how much the integral of an edge is off in its thin tube, as a multiple of the edge vector -/
def turnError (e : Edge ℝ) (s : V3 ℝ) : ℝ := -lineJ (e.start.sub s) e.vector.neg - lineJ (e.start.sub s) e.vector

/-- by how much its gradient is off -/
def turnGradError (e : Edge ℝ) (s : V3 ℝ) : V3 ℝ := (edgeGrad (e.start.sub s) e.vector.neg).neg.sub (edgeGrad (e.start.sub s) e.vector)

/-- the edge in the tube -/
theorem badEdge (hh : h.IsHull) (hp : mkPoly h inHull = .ok p) {s : V3 ℝ} {i j i' j' : Nat} {e : Edge ℝ} (ht : h.InTube p s i j i' j' e) :
    edgeValue p s true i e = .ok (V3.smul (lineJ (e.start.sub s) (e.fin.sub e.start) + turnError e s) (e.fin.sub e.start),
      some (gradRows ((edgeGrad (e.start.sub s) (e.fin.sub e.start)).add (turnGradError e s)) ((e.fin.sub e.start).sdiv (vlen (e.fin.sub e.start))))) := by
  have hpr := edge_proper hh hp ht.edge
  unfold edgeValue
  rw [ht.twin]
  simp only
  rw [if_neg (by have := ht.later; omega), edgeIntegral_turned_gradient hpr ht.aside ht.near ht.far, ← hpr.vector]
  have e1 : lineJ (e.start.sub s) e.vector + turnError e s = -lineJ (e.start.sub s) e.vector.neg := by unfold turnError; ring
  have e2 : (edgeGrad (e.start.sub s) e.vector).add (turnGradError e s) = (edgeGrad (e.start.sub s) e.vector.neg).neg := by
    unfold turnGradError; refine V3.ext' ?_ ?_ ?_ <;> simp
  rw [e1, e2]

/-- and its twin -/
theorem badTwin (hh : h.IsHull) (hp : mkPoly h inHull = .ok p) {s : V3 ℝ} {i j i' j' : Nat} {e e' : Edge ℝ} (ht : h.InTube p s i j i' j' e)
    (h1 : e'.twin = some (i, j)) (h2 : e'.start = e.fin) (h3 : e'.fin = e.start) :
    edgeValue p s true i' e' = .ok (V3.smul (lineJ (e'.start.sub s) (e'.fin.sub e'.start) + turnError e s) (e'.fin.sub e'.start),
      some (gradRows ((edgeGrad (e'.start.sub s) (e'.fin.sub e'.start)).add (turnGradError e s)) ((e'.fin.sub e'.start).sdiv (vlen (e'.fin.sub e'.start))))) := by
  have hpr := edge_proper hh hp ht.edge
  have hlt := ht.later
  have hb := badEdge hh hp ht
  unfold edgeValue at hb ⊢
  rw [ht.twin] at hb
  rw [h1]
  simp only at hb ⊢
  rw [if_neg (by omega)] at hb
  rw [if_pos hlt, ht.edge]
  simp only [hb, Except.map, pairNeg, Option.map_some]
  have e1 : e'.start.sub s = (e.start.sub s).add e.vector := by rw [h2, hpr.vector]; refine V3.ext' ?_ ?_ ?_ <;> simp
  have e2 : e'.fin.sub e'.start = e.vector.neg := by rw [h2, h3, hpr.vector]; refine V3.ext' ?_ ?_ ?_ <;> simp
  rw [e1, e2, lineJ_reverse, edgeGrad_reverse ht.aside, vlen_neg, sdiv_neg, ← hpr.vector]
  congr 2
  · refine V3.ext' ?_ ?_ ?_ <;> simp
  · unfold gradRows M3.neg
    congr 1
    refine M3.ext' (V3.ext' ?_ ?_ ?_) (V3.ext' ?_ ?_ ?_) (V3.ext' ?_ ?_ ?_) <;> simp

theorem tubeTerm_zero (f : Face ℝ) (s : V3 ℝ) (e : Edge ℝ) (a d : V3 ℝ) : tubeTerm f s e 0 V3.zeros a d = 0 := by
  unfold tubeTerm; simp [rdot]

/-- **the tensor at a station in the tube of one edge** -/
theorem returned_tube (hh : h.IsHull) (hp : mkPoly h inHull = .ok p) {s : V3 ℝ} {i j i' j' : Nat} {e e' : Edge ℝ} (ht : h.InTube p s i j i' j' e)
    {f f' : Face ℝ} (hf : p.faces[i]? = some f) (hf' : p.faces[i']? = some f') (hfe' : f'.edges[j']? = some e')
    (h1 : e'.twin = some (i, j)) (h2 : e'.start = e.fin) (h3 : e'.fin = e.start) (ρ Gc : ℝ) :
    ∃ G, Call.onNew p ⟨s, ρ, Gc, true⟩ = .ok (G, upper (fun a d => 1000000000 * Gc * ρ * ((∑ k : Fin p.faces.length, faceSlope p.faces[k] s a d) +
      (tubeTerm f s e (turnError e s) (turnGradError e s) a d + tubeTerm f' s e' (turnError e s) (turnGradError e s) a d)))) := by
  have hfe : f.edges[j]? = some e := by have := ht.edge; unfold Poly.edgeAt at this; rw [hf] at this; exact this
  have hii : i ≠ i' := ht.later.ne
  rw [onNew_closed (wellTwinned_of_hull hh hp)]
  set δ : Nat → Nat → ℝ := fun k m => if (k, m) = (i, j) ∨ (k, m) = (i', j') then turnError e s else 0 with hδ
  set W : Nat → Nat → V3 ℝ := fun k m => if (k, m) = (i, j) ∨ (k, m) = (i', j') then turnGradError e s else V3.zeros with hW
  have val : ∀ (k : Nat) (g : Face ℝ), p.faces[k]? = some g → ∀ (m : Nat) (e1 : Edge ℝ), g.edges[m]? = some e1 → ∃ D, edgeValue p s true k e1 =
        .ok (V3.smul (lineJ (e1.start.sub s) (e1.fin.sub e1.start) + δ k m) (e1.fin.sub e1.start), D) ∧
      (rdot g.un (g.pa.sub s) ≠ 0 → D = some (gradRows ((edgeGrad (e1.start.sub s) (e1.fin.sub e1.start)).add (W k m)) ((e1.fin.sub e1.start).sdiv (vlen (e1.fin.sub e1.start))))) := by
    intro k g hg m e1 he1
    have hE : p.edgeAt k m = some e1 := by unfold Poly.edgeAt; rw [hg]; exact he1
    by_cases c1 : (k, m) = (i, j)
    · simp only [hδ, hW, c1, true_or, if_true]
      obtain ⟨rfl, rfl⟩ := Prod.mk.inj c1
      rw [ht.edge] at hE; cases hE
      exact ⟨_, badEdge hh hp ht, fun _ => rfl⟩
    · by_cases c2 : (k, m) = (i', j')
      · simp only [hδ, hW, c2, or_true, if_true]
        obtain ⟨rfl, rfl⟩ := Prod.mk.inj c2
        rw [hf'] at hg; cases hg
        rw [hfe'] at he1; cases he1
        exact ⟨_, badTwin hh hp ht h1 h2 h3, fun _ => rfl⟩
      · simp only [hδ, hW, c1, c2, or_self, if_false]
        obtain ⟨b1, b2⟩ := ht.others k m e1 hE c1 c2
        exact goodEdge hh hp hg he1 b1 b2
  have hreg : ∀ (k : Nat) (g : Face ℝ), p.faces[k]? = some g →
      (rdot g.un (g.pa.sub s) = 0 ∧ OffTriangle g.pa g.pb g.pc s) ∨ repsilon < |rdot g.un (g.pa.sub s)| := by
    intro k g hg
    rcases ht.planes g (List.mem_of_getElem? hg) with h0 | h0
    · exact .inl ⟨h0, offTriangle_of_plane hh hp hg ht.off h0⟩
    · exact .inr h0
  set Ψ : Nat → V3 ℝ → V3 ℝ → ℝ := fun k a d => if k = i then tubeTerm f s e (turnError e s) (turnGradError e s) a d else
    if k = i' then tubeTerm f' s e' (turnError e s) (turnGradError e s) a d else 0 with hΨ
  have face : ∀ (k : Nat) (g : Face ℝ) (v : V3 ℝ × M3 ℝ), p.faces[k]? = some g → faceValue p s ρ Gc true k g = .ok v →
      v.2 = upper (fun a d => 1000000000 * Gc * ρ * (faceSlope g s a d + Ψ k a d)) := by
    intro k g v hg hv
    obtain ⟨-, -, -, -, -, e0, e1, e2, hE, -⟩ := edges_of_hull hh hp hg
    rw [faceValue_wrong hh hp hg (δ k) (W k) (hreg k g hg) (val k g hg) ρ Gc hv hE]
    congr 1
    funext a d
    congr 2
    simp only [hΨ, hδ, hW]
    by_cases c1 : k = i
    · subst c1
      rw [hf] at hg; cases hg
      rw [hE] at hfe
      have hj : ∀ m, ((k, m) = (k, j) ∨ (k, m) = (i', j')) ↔ m = j := by intro m; simp [hii]
      simp only [hj, if_true]
      rcases j with _ | _ | _ | j <;> simp at hfe <;> subst hfe <;> simp [tubeTerm_zero]
    · by_cases c2 : k = i'
      · subst c2
        rw [hf'] at hg; cases hg
        rw [hE] at hfe'
        have hj : ∀ m, ((k, m) = (i, j) ∨ (k, m) = (k, j')) ↔ m = j' := by intro m; simp [c1]
        simp only [hj, if_true, if_neg c1]
        rcases j' with _ | _ | _ | j' <;> simp at hfe' <;> subst hfe' <;> simp [tubeTerm_zero]
      · simp [c1, c2, tubeTerm_zero]
  obtain ⟨v, hv⟩ := facesValue_ok (p := p) (obs := s) (ρ := ρ) (Gc := Gc) (gr := true) p.faces 0 V3.zeros M3.zeros (by
    intro k g hk
    rw [Nat.zero_add]
    obtain ⟨w, hw'⟩ := omegaValue_ok g s true
    obtain ⟨vs, hvs, hl⟩ := edgesValue_ok (p := p) (obs := s) (gr := true) (i := k) (es := g.edges) (by
      intro e1 he1
      obtain ⟨m, hm⟩ := List.getElem?_of_mem he1
      obtain ⟨D, hD, -⟩ := val k g hk m e1 hm
      exact ⟨_, hD⟩)
    obtain ⟨-, -, -, -, -, e0, e1, e2, hE, -⟩ := edges_of_hull hh hp hk
    rw [hE] at hl
    unfold faceValue
    rw [hw', hvs]
    rcases vs with _ | ⟨v, vs⟩
    · cases hl
    · exact ⟨_, rfl⟩)
  refine ⟨v.1, ?_⟩
  rw [hv]
  congr 1
  refine Prod.ext rfl ?_
  have key : ∀ (φ : M3 ℝ → ℝ) (a d : V3 ℝ), (∀ a b, φ (a.add b) = φ a + φ b) → φ M3.zeros = 0 → (∀ B, φ (upper B) = B a d) →
      φ v.2 = 1000000000 * Gc * ρ * ((∑ k : Fin p.faces.length, faceSlope p.faces[k] s a d) +
      (tubeTerm f s e (turnError e s) (turnGradError e s) a d + tubeTerm f' s e' (turnError e s) (turnGradError e s) a d)) := by
    intro φ a d q1 q2 q3
    have := facesValue_tensor_at (φ := φ) (ψ := fun k => 1000000000 * Gc * ρ * ((p.faces[k]?.elim 0 fun g => faceSlope g s a d) + Ψ k a d)) q1 p.faces 0 V3.zeros M3.zeros v (by
      intro k g w hk hg
      rw [Nat.zero_add] at hg ⊢
      rw [face k g w hk hg, q3, hk]; rfl) hv
    rw [this, q2, zero_add]
    simp only [Nat.zero_add]
    rw [← Finset.mul_sum, Finset.sum_add_distrib, Finset.sum_range]
    have e1 : ∑ k : Fin p.faces.length, (p.faces[(k : Nat)]?.elim 0 fun g => faceSlope g s a d) = ∑ k : Fin p.faces.length, faceSlope p.faces[k] s a d := by
      refine Finset.sum_congr rfl fun k _ => ?_
      have : p.faces[(k : Nat)]? = some p.faces[k] := List.getElem?_eq_getElem k.2
      rw [this]; rfl
    have e2 : ∑ k ∈ Finset.range p.faces.length, Ψ k a d = tubeTerm f s e (turnError e s) (turnGradError e s) a d + tubeTerm f' s e' (turnError e s) (turnGradError e s) a d := by
      have : ∀ k, Ψ k a d = (if k = i then tubeTerm f s e (turnError e s) (turnGradError e s) a d else 0) +
          (if k = i' then tubeTerm f' s e' (turnError e s) (turnGradError e s) a d else 0) := by
        intro k
        simp only [hΨ]
        by_cases c1 : k = i
        · subst c1; simp [hii]
        · simp [c1]
      simp only [this, Finset.sum_add_distrib]
      rw [Finset.sum_ite_eq' , Finset.sum_ite_eq', if_pos, if_pos]
      · exact Finset.mem_range.mpr (List.getElem?_eq_some_iff.mp hf').1
      · exact Finset.mem_range.mpr (List.getElem?_eq_some_iff.mp hf).1
    rw [e1, e2]
  refine M3.ext' (V3.ext' ?_ ?_ ?_) (V3.ext' ?_ ?_ ?_) (V3.ext' ?_ ?_ ?_)
  · exact key (fun m => m.r0.x) _ _ (fun _ _ => rfl) rfl (fun _ => rfl)
  · exact key (fun m => m.r0.y) _ _ (fun _ _ => rfl) rfl (fun _ => rfl)
  · exact key (fun m => m.r0.z) _ _ (fun _ _ => rfl) rfl (fun _ => rfl)
  · exact key (fun m => m.r1.x) _ _ (fun _ _ => rfl) rfl (fun _ => rfl)
  · exact key (fun m => m.r1.y) _ _ (fun _ _ => rfl) rfl (fun _ => rfl)
  · exact key (fun m => m.r1.z) _ _ (fun _ _ => rfl) rfl (fun _ => rfl)
  · exact key (fun m => m.r2.x) _ _ (fun _ _ => rfl) rfl (fun _ => rfl)
  · exact key (fun m => m.r2.y) _ _ (fun _ _ => rfl) rfl (fun _ => rfl)
  · exact key (fun m => m.r2.z) _ _ (fun _ _ => rfl) rfl (fun _ => rfl)

/-- the two terms together -/
theorem tubeTerms (hh : h.IsHull) (hp : mkPoly h inHull = .ok p) {s : V3 ℝ} {i j i' j' : Nat} {e e' : Edge ℝ} (ht : h.InTube p s i j i' j' e)
    {f f' : Face ℝ} (hf : p.faces[i]? = some f) (hf' : p.faces[i']? = some f') (hfe' : f'.edges[j']? = some e')
    (h2 : e'.start = e.fin) (h3 : e'.fin = e.start) (a d : V3 ℝ) :
    tubeTerm f s e (turnError e s) (turnGradError e s) a d + tubeTerm f' s e' (turnError e s) (turnGradError e s) a d =
      rdot (cross f.un e.vector) a * (rdot f.un (e.start.sub s) * rdot ((turnGradError e s).sdiv (vlen e.vector)) d - turnError e s * rdot f.un d) -
      rdot (cross f'.un e.vector) a * (rdot f'.un (e.start.sub s) * rdot ((turnGradError e s).sdiv (vlen e.vector)) d - turnError e s * rdot f'.un d) := by
  have hfe : f.edges[j]? = some e := by have := ht.edge; unfold Poly.edgeAt at this; rw [hf] at this; exact this
  have hpr := edge_proper hh hp ht.edge
  obtain ⟨n1, n2⟩ := edge_in_plane hh hp hf hfe s
  obtain ⟨m1, m2⟩ := edge_in_plane hh hp hf' hfe' s
  have hl := (vlen_pos (right_ne_of_cross ht.aside)).ne'
  have e2 : e'.fin.sub e'.start = e.vector.neg := by rw [h2, h3, hpr.vector]; refine V3.ext' ?_ ?_ ?_ <;> simp
  have m3 : rdot f'.un (e.start.sub s) = rdot f'.un (f'.pa.sub s) := by
    rw [← m2, h2]; rw [h2, h3, rdot_sub] at m1; rw [rdot_sub, rdot_sub]; linarith
  unfold tubeTerm
  rw [← n2, ← m3, e2, ← hpr.vector, vlen_neg]
  generalize turnError e s = δ
  generalize turnGradError e s = W
  generalize rdot f.un (e.start.sub s) = H
  generalize rdot f'.un (e.start.sub s) = H'
  generalize vlen e.vector = l
  simp only [rdot, cross_x, cross_y, cross_z, sdiv_x, sdiv_y, sdiv_z, neg_x, neg_y, neg_z]
  ring

/-- the two faces of an edge do not lie back to back -/
theorem not_backToBack (hh : h.IsHull) (hp : mkPoly h inHull = .ok p) {s : V3 ℝ} {i j i' j' : Nat} {e e' : Edge ℝ} (ht : h.InTube p s i j i' j' e)
    {f f' : Face ℝ} (hf : p.faces[i]? = some f) (hf' : p.faces[i']? = some f') (hfe' : f'.edges[j']? = some e')
    (h2 : e'.start = e.fin) : f'.un ≠ f.un.neg := by
  intro hu
  have hfe : f.edges[j]? = some e := by have := ht.edge; unfold Poly.edgeAt at this; rw [hf] at this; exact this
  obtain ⟨n1, n2⟩ := edge_in_plane hh hp hf hfe s
  obtain ⟨m1, m2⟩ := edge_in_plane hh hp hf' hfe' s
  obtain ⟨-, -, -, -, -, -, b1⟩ := face_facts hh hp hf
  obtain ⟨-, -, -, -, -, -, b2⟩ := face_facts hh hp hf'
  obtain ⟨q, hq⟩ := hh.solid
  have c1 := b1 q hq
  have c2 := b2 q hq
  rw [h2] at m2
  rw [hu] at m2 c2
  simp only [rdot_sub, neg_rdot] at n1 n2 m2 c2
  linarith

theorem cross_neg_ne {R L : V3 ℝ} (h : cross R L ≠ V3.zeros) : cross R L.neg ≠ V3.zeros := by
  intro h0
  apply h
  have a1 := congrArg V3.x h0
  have a2 := congrArg V3.y h0
  have a3 := congrArg V3.z h0
  simp at a1 a2 a3
  refine V3.ext' ?_ ?_ ?_ <;> simp <;> linarith

/-- **C64, exactly.**  At a station in the thin tube about the prolongation of one computed edge (and regular otherwise) the query
with gradient returns, and the tensor it returns is the gradient of the attraction if and only if the edge is flat, i.e. the two faces
that share it have the same normal.  At every edge that is really an edge of the solid the tensor is wrong. -/
theorem C64_exact (hh : h.IsHull) (hp : mkPoly h inHull = .ok p) {s : V3 ℝ} {i j i' j' : Nat} {e : Edge ℝ} (ht : h.InTube p s i j i' j' e)
    {f f' : Face ℝ} (hf : p.faces[i]? = some f) (hf' : p.faces[i']? = some f') {ρ Gc : ℝ} (hK : Gc * ρ ≠ 0) :
    ∃ G T, Call.onNew p ⟨s, ρ, Gc, true⟩ = .ok (G, T) ∧ ((∀ d,
      HasDerivAt (fun x => 1000000000 * Gc * ρ * (attraction h.body (s.add (V3.smul x d))).x) (rdot T.r0 d) 0 ∧
      HasDerivAt (fun x => 1000000000 * Gc * ρ * (attraction h.body (s.add (V3.smul x d))).y) (rdot T.r1 d) 0 ∧
      HasDerivAt (fun x => 1000000000 * Gc * ρ * (attraction h.body (s.add (V3.smul x d))).z) (rdot T.r2 d) 0) ↔ f.un = f'.un) := by
  have hfe : f.edges[j]? = some e := by have := ht.edge; unfold Poly.edgeAt at this; rw [hf] at this; exact this
  obtain ⟨i'', j'', f'', e', htw, hf'', hfe', htw', -, -, -, h2, h3, -⟩ := C25_twins hh hp hf hfe
  rw [ht.twin] at htw
  simp only [Option.some.injEq, Prod.mk.injEq] at htw
  obtain ⟨rfl, rfl⟩ := htw
  rw [hf'] at hf''; cases hf''
  obtain ⟨G, hG⟩ := returned_tube hh hp ht hf hf' hfe' htw' h2 h3 ρ Gc
  obtain ⟨hd, lin, sym⟩ := newton_slopes hh hp ht.off (1000000000 * Gc * ρ)
  have hpr := edge_proper hh hp ht.edge
  have hK' : 1000000000 * Gc * ρ ≠ 0 := by rw [mul_assoc]; exact mul_ne_zero (by norm_num) hK
  refine ⟨G, _, hG, ?_, ?_⟩
  · intro H
    obtain ⟨dx0, -, -⟩ := hd ⟨1, 0, 0⟩
    obtain ⟨dy0, dy1, -⟩ := hd ⟨0, 1, 0⟩
    obtain ⟨dz0, dz1, dz2⟩ := hd ⟨0, 0, 1⟩
    obtain ⟨tx0, -, -⟩ := H ⟨1, 0, 0⟩
    obtain ⟨ty0, ty1, -⟩ := H ⟨0, 1, 0⟩
    obtain ⟨tz0, tz1, tz2⟩ := H ⟨0, 0, 1⟩
    set C : V3 ℝ → V3 ℝ → ℝ := fun a d => tubeTerm f s e (turnError e s) (turnGradError e s) a d + tubeTerm f' s e' (turnError e s) (turnGradError e s) a d
    have cancel : ∀ A B x : ℝ, 1000000000 * Gc * ρ * A = x → x = 1000000000 * Gc * ρ * (A + B) → B = 0 := by
      intro A B x q1 q2
      rw [← q1, mul_right_inj' hK'] at q2
      linarith
    have xx : C ⟨1, 0, 0⟩ ⟨1, 0, 0⟩ = 0 := cancel _ _ _ (dx0.unique tx0) (by simp [upper, rdot, C])
    have xy : C ⟨1, 0, 0⟩ ⟨0, 1, 0⟩ = 0 := cancel _ _ _ (dy0.unique ty0) (by simp [upper, rdot, C])
    have xz : C ⟨1, 0, 0⟩ ⟨0, 0, 1⟩ = 0 := cancel _ _ _ (dz0.unique tz0) (by simp [upper, rdot, C])
    have yy : C ⟨0, 1, 0⟩ ⟨0, 1, 0⟩ = 0 := cancel _ _ _ (dy1.unique ty1) (by simp [upper, rdot, C])
    have yz : C ⟨0, 1, 0⟩ ⟨0, 0, 1⟩ = 0 := cancel _ _ _ (dz1.unique tz1) (by simp [upper, rdot, C])
    have zz : C ⟨0, 0, 1⟩ ⟨0, 0, 1⟩ = 0 := cancel _ _ _ (dz2.unique tz2) (by simp [upper, rdot, C])
    obtain ⟨-, -, -, -, hn, -, -⟩ := face_facts hh hp hf
    obtain ⟨-, -, -, -, hn', -, -⟩ := face_facts hh hp hf'
    have o1 := (edge_in_plane hh hp hf hfe s).1
    have o2 := (edge_in_plane hh hp hf' hfe' s).1
    have hl := vlen_pos (right_ne_of_cross ht.aside)
    have s1 := edge_slack ht.aside
    have s2 := edge_slack (cross_neg_ne ht.aside)
    obtain ⟨-, -, -, -, hpos⟩ := C13_thin_tube hpr true ht.aside ht.near ht.far
    have hnn := lineJ_nonneg (e.start.sub s) e.vector.neg
    rcases twoPlanes (n := f.un) (n' := f'.un) (L := e.vector) (R := e.start.sub s) (w := (turnGradError e s).sdiv (vlen e.vector)) (δ := turnError e s)
      hn.unit hn'.unit (by rw [hpr.vector]; exact o1)
      (by rw [hpr.vector]; rw [h2, h3] at o2; rw [rdot_sub] at o2 ⊢; linarith) (right_ne_of_cross ht.aside)
      (by unfold turnError; linarith)
      (by
        have g1 : rdot ((turnGradError e s).sdiv (vlen e.vector)) (e.start.sub s) =
            -(rdot (edgeGrad (e.start.sub s) e.vector.neg) (e.start.sub s) + rdot (edgeGrad (e.start.sub s) e.vector) (e.start.sub s)) / vlen e.vector := by
          unfold turnGradError; simp only [rdot, sdiv_x, sdiv_y, sdiv_z, neg_x, neg_y, neg_z, sub_x, sub_y, sub_z]; ring
        have g2 : rdot ((turnGradError e s).sdiv (vlen e.vector)) e.vector =
            -(rdot (edgeGrad (e.start.sub s) e.vector.neg) e.vector + rdot (edgeGrad (e.start.sub s) e.vector) e.vector) / vlen e.vector := by
          unfold turnGradError; simp only [rdot, sdiv_x, sdiv_y, sdiv_z, neg_x, neg_y, neg_z, sub_x, sub_y, sub_z]; ring
        have n1 : rdot e.vector.neg e.vector.neg = rdot e.vector e.vector := by rw [rdot_neg, neg_rdot, neg_neg]
        rw [vlen_neg, n1, rdot_neg, rdot_neg] at s2
        rw [g1, g2, turnError]
        set l := vlen e.vector
        set LL := rdot e.vector e.vector
        set A := rdot (edgeGrad (e.start.sub s) e.vector.neg) (e.start.sub s)
        set A' := rdot (edgeGrad (e.start.sub s) e.vector) (e.start.sub s)
        set B := rdot (edgeGrad (e.start.sub s) e.vector.neg) e.vector
        set B' := rdot (edgeGrad (e.start.sub s) e.vector) e.vector
        set J := lineJ (e.start.sub s) e.vector
        set J' := lineJ (e.start.sub s) e.vector.neg
        set b := rdot (e.start.sub s) e.vector
        have : LL * (-(A + A') / l) - b * (-(B + B') / l) = -(LL * A - b * B + (LL * A' - b * B')) / l := by ring
        rw [this, lt_div_iff₀ hl]
        nlinarith)
      C (tubeTerms hh hp ht hf hf' hfe' h2 h3) xx xy xz yy yz zz with h | h
    · exact h.symm
    · exact absurd h (not_backToBack hh hp ht hf hf' hfe' h2)
  · intro hu d
    obtain ⟨d0, d1, d2⟩ := hd d
    have t0 : ∀ a d, tubeTerm f s e (turnError e s) (turnGradError e s) a d + tubeTerm f' s e' (turnError e s) (turnGradError e s) a d = 0 := by
      intro a d
      rw [tubeTerms hh hp ht hf hf' hfe' h2 h3, hu, sub_self]
    simp only [t0, add_zero]
    refine ⟨d0.congr_deriv ?_, d1.congr_deriv ?_, d2.congr_deriv ?_⟩
    · rw [lin]; simp only [upper, rdot]; ring
    · rw [lin, sym ⟨0, 1, 0⟩ ⟨1, 0, 0⟩]; simp only [upper, rdot]; ring
    · rw [lin, sym ⟨0, 0, 1⟩ ⟨1, 0, 0⟩, sym ⟨0, 0, 1⟩ ⟨0, 1, 0⟩]; simp only [upper, rdot]; ring

/-- the corners an edge joins -/
theorem edge_simplex (hh : h.IsHull) (hp : mkPoly h inHull = .ok p) {k j : Nat} {e : Edge ℝ} (he : p.edgeAt k j = some e) :
    e.start = h.pt e.simplex.1 ∧ e.fin = h.pt e.simplex.2 ∧ e.simplex.1 < h.points.length ∧ e.simplex.2 < h.points.length := by
  obtain ⟨sm, tf, τ, hb⟩ := built_of_ok hh hp
  obtain ⟨s, pr, hs, hpr, rfl⟩ := (edge_of_built hb).mp he
  obtain ⟨c1, c2⟩ := Hull.corner_of_cyc (List.mem_of_getElem? hpr)
  have ho := (hb.order k s hs).1
  have hm := List.mem_of_getElem? hs
  exact ⟨rfl, rfl, hh.cornerIndex s hm _ ((Hull.corner_of_order ho _).mp c1), hh.cornerIndex s hm _ ((Hull.corner_of_order ho _).mp c2)⟩

/-- the station of `C64_thin_tensor` -/
theorem thin_inTube (hp : mkPoly tetra inHull = .ok p) : ∃ j i' j' e, tetra.InTube p thinStation 0 j i' j' e := by
  have hn4 : p.faces.length = 4 := (C24_counter_clockwise tetra_isHull hp).1
  obtain ⟨f, hf⟩ : ∃ f, p.faces[0]? = some f := ⟨_, List.getElem?_eq_getElem (by omega)⟩
  have heps : repsilon = 1 / 4503599627370496 := by unfold repsilon; norm_num
  obtain ⟨hun, hpa⟩ := tetra_un0 hp hf
  obtain ⟨j, e, hfe, hs, hfn⟩ : ∃ (j : Nat) (e : Edge ℝ), f.edges[j]? = some e ∧ e.start = tetra.pt 1 ∧ e.fin = tetra.pt 0 := by
    obtain ⟨t, -, hpts, -, hn, -, -⟩ := face_facts tetra_isHull hp hf
    obtain ⟨t, ht, a, b, c, e0, e1, e2, hE, hperm, hpts', hh0, hh1, hh2⟩ := edges_of_hull tetra_isHull hp hf
    have ht' : t = (0, 1, 2) := (Option.some.inj ht).symm
    subst ht'
    have ea : f.pa = tetra.pt a := by unfold Face.pa; rw [hpts']; rfl
    have eb : f.pb = tetra.pt b := by unfold Face.pb; rw [hpts']; rfl
    have ec : f.pc = tetra.pt c := by unfold Face.pc; rw [hpts']; rfl
    have hpos := hn.pos
    rw [ea, eb, ec, hun] at hpos
    have hnd : [a, b, c].Nodup := hperm.nodup_iff.mpr (by decide)
    have ma : a ∈ [0, 1, 2] := hperm.subset (by simp)
    have mb : b ∈ [0, 1, 2] := hperm.subset (by simp)
    have mc : c ∈ [0, 1, 2] := hperm.subset (by simp)
    rw [hE]
    simp only [List.mem_cons, List.not_mem_nil, or_false] at ma mb mc
    rcases ma with rfl | rfl | rfl <;> rcases mb with rfl | rfl | rfl <;> rcases mc with rfl | rfl | rfl <;>
      first
      | exact absurd hnd (by decide)
      | (exfalso; revert hpos; simp [tetra_pt0, tetra_pt1, tetra_pt2, rdot]; done)
      | skip
    · exact ⟨2, e2, rfl, hh2⟩
    · exact ⟨0, e0, rfl, hh0⟩
    · exact ⟨1, e1, rfl, hh1⟩
  obtain ⟨i', j', f', e', htw, hf', hfe', htw', hne, -, -, h2, h3, hsx, huniq⟩ := C25_twins tetra_isHull hp hf hfe
  obtain ⟨i2, j2, -, -, htw2, -, -, -, -, -, -, -, -, -, huniq'⟩ := C25_twins tetra_isHull hp hf' hfe'
  rw [htw'] at htw2
  simp only [Option.some.injEq, Prod.mk.injEq] at htw2
  obtain ⟨rfl, rfl⟩ := htw2
  have hE : p.edgeAt 0 j = some e := by unfold Poly.edgeAt; rw [hf]; exact hfe
  have hE' : p.edgeAt i' j' = some e' := by unfold Poly.edgeAt; rw [hf']; exact hfe'
  have hpr := edge_proper tetra_isHull hp hE
  obtain ⟨d1, d2⟩ := thin_dist
  obtain ⟨k1, k2, k3⟩ := thin_dir
  have hv : e.vector = ⟨-1, 0, 0⟩ := by rw [hpr.vector, hs, hfn, k1]
  have idx : ∀ a b, a < 4 → b < 4 → tetra.pt a = tetra.pt b → a = b := by
    intro a b ha hb hab
    have hx := congrArg V3.x hab
    have hy := congrArg V3.y hab
    have hz := congrArg V3.z hab
    revert hx hy hz
    interval_cases a <;> interval_cases b <;> simp [tetra_pt0, tetra_pt1, tetra_pt2, tetra_pt3]
  have hsim : e.simplex = (1, 0) := by
    obtain ⟨q1, q2, q3, q4⟩ := edge_simplex tetra_isHull hp hE
    exact Prod.ext (idx _ _ q3 (by decide) (q1.symm.trans hs)) (idx _ _ q4 (by decide) (q2.symm.trans hfn))
  refine ⟨j, i', j', e, hE, htw, by omega, ?_, ?_, ?_, ?_, ?_, fun h => thin_notMem (tetra.body_compact.isClosed.frontier_subset h)⟩
  · intro h0
    have := congrArg V3.z h0
    rw [hv, hs, tetra_pt1] at this
    simp [thinStation] at this
  · rw [hv, hs, k2, k3]; linarith
  · rw [hs, heps]; linarith
  · intro k m e1 he1 c1 c2
    obtain ⟨q1, q2, q3, q4⟩ := edge_simplex tetra_isHull hp he1
    have hne1 := (edge_proper tetra_isHull hp he1).ne
    obtain ⟨f1, hf1, hfe1⟩ := Option.bind_eq_some_iff.mp he1
    have x1 : ¬ (e1.simplex.1 = 1 ∧ e1.simplex.2 = 0) := by
      rintro ⟨a1, a2⟩
      obtain ⟨rfl, rfl⟩ := huniq' k m f1 e1 hf1 hfe1 (by rw [hsx, hsim]; exact Prod.ext a1 a2)
      exact c1 rfl
    have x2 : ¬ (e1.simplex.1 = 0 ∧ e1.simplex.2 = 1) := by
      rintro ⟨a1, a2⟩
      obtain ⟨rfl, rfl⟩ := huniq k m f1 e1 hf1 hfe1 (by rw [hsim]; exact Prod.ext a1 a2)
      exact c2 rfl
    have hne2 : e1.simplex.1 ≠ e1.simplex.2 := by intro h; rw [q1, q2, h] at hne1; exact hne1 rfl
    rw [q1, q2]
    exact ⟨thin_clear _ _ q3 q4 hne2 x2 x1, thin_clear _ _ q4 q3 hne2.symm (fun h => x1 ⟨h.2, h.1⟩) (fun h => x2 ⟨h.2, h.1⟩)⟩
  · intro g hg
    obtain ⟨k, hk⟩ := List.getElem?_of_mem hg
    have hk4 : k < 4 := by rw [← hn4]; exact (List.getElem?_eq_some_iff.mp hk).1
    rw [rdot_sub, heps]
    interval_cases k
    · obtain ⟨hun, hpa⟩ := tetra_un0 hp hk
      left; rw [hpa, hun]; simp [rdot, thinStation]
    · obtain ⟨hun, hpa⟩ := tetra_un1 hp hk
      right; rw [hpa, hun]; simp [rdot, thinStation]; norm_num
    · obtain ⟨hun, hpa⟩ := tetra_un2 hp hk
      right; rw [hpa, hun]; simp [rdot, thinStation]; norm_num
    · obtain ⟨u, hun, hu, hpa⟩ := tetra_un3 hp hk
      right; rw [hpa, hun]; simp only [rdot, thinStation]
      refine lt_of_lt_of_le ?_ (le_abs_self _)
      linarith

/-- there is a station at which the theorem says that the tensor is wrong -/
example (hp : mkPoly tetra inHull = .ok p) : ∃ j i' j' e f f', tetra.InTube p thinStation 0 j i' j' e ∧ p.faces[0]? = some f ∧ p.faces[i']? = some f' ∧
    f.un ≠ f'.un := by
  obtain ⟨j, i', j', e, ht⟩ := thin_inTube hp
  have hn4 : p.faces.length = 4 := (C24_counter_clockwise tetra_isHull hp).1
  obtain ⟨f, hf⟩ : ∃ f, p.faces[0]? = some f := ⟨_, List.getElem?_eq_getElem (by omega)⟩
  have hfe : f.edges[j]? = some e := by have := ht.edge; unfold Poly.edgeAt at this; rw [hf] at this; exact this
  obtain ⟨i'', j'', f', e', htw, hf', -⟩ := C25_twins tetra_isHull hp hf hfe
  rw [ht.twin] at htw
  simp only [Option.some.injEq, Prod.mk.injEq] at htw
  obtain ⟨rfl, rfl⟩ := htw
  refine ⟨j, i', j', e, f, f', ht, hf, hf', ?_⟩
  rw [(tetra_un0 hp hf).1]
  have hk4 : i' < 4 := by rw [← hn4]; exact (List.getElem?_eq_some_iff.mp hf').1
  have hlt := ht.later
  intro h0
  have hz := congrArg V3.z h0
  interval_cases i'
  · rw [(tetra_un1 hp hf').1] at hz; simp at hz
  · rw [(tetra_un2 hp hf').1] at hz; simp at hz
  · obtain ⟨u, hun, hu, -⟩ := tetra_un3 hp hf'
    rw [hun] at hz; simp at hz; linarith

end
end
end Geec
