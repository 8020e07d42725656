import Verif.Lemmas.TensorPlane
import Verif.Props.Trace
/-
The tensor and Newton's law.
-/
namespace Geec
open Arith MeasureTheory
noncomputable section
variable {h : Hull ℝ} {inHull : V3 ℝ → Bool} {p : Poly ℝ}

/-- the station is clear of the sides of all triangles -/
def Hull.Clear (h : Hull ℝ) (s : V3 ℝ) : Prop :=
  ∀ t ∈ h.simplices, ∀ i j, Corner t i → Corner t j → i ≠ j → ClearOf (h.pt i) (h.pt j) s

theorem clear_edges (hh : h.IsHull) (hp : mkPoly h inHull = .ok p) {s : V3 ℝ} (hc : h.Clear s) : p.ClearEdges s := by
  intro i j e he
  obtain ⟨t, ht, ⟨a, ha, ea⟩, b, hb, eb⟩ := edge_start_corner hh hp he
  have hne := (edge_proper hh hp he).ne
  have hab : a ≠ b := by rintro rfl; exact hne (ea.trans eb.symm)
  rw [ea, eb]
  exact ⟨hc t (List.mem_of_getElem? ht) a b ha hb hab, hc t (List.mem_of_getElem? ht) b a hb ha hab.symm⟩

/-- a station off the surface that lies in the plane of a face is not on the face -/
theorem offTriangle_of_plane (hh : h.IsHull) (hp : mkPoly h inHull = .ok p) {k : Nat} {f : Face ℝ} (hf : p.faces[k]? = some f) {s : V3 ℝ}
    (hfr : s.toP ∉ frontier h.body) (h0 : rdot f.un (f.pa.sub s) = 0) : OffTriangle f.pa f.pb f.pc s := by
  obtain ⟨t, ht, hpts, hperm, hn, h1, h2⟩ := face_facts hh hp hf
  intro u hu v hv hz
  have hmem : ∀ q ∈ [f.pa, f.pb, f.pc], q.toP ∈ h.body := by
    intro q hq
    have hq' := hperm.subset hq
    have hl := fun i hi => hh.cornerIndex t (List.mem_of_getElem? ht) i hi
    have hb : ∀ i, Corner t i → (h.pt i).toP ∈ h.body := by
      intro i hi
      exact Hull.mem_body (Hull.pt_mem (hl i hi))
    simp only [List.mem_cons, List.not_mem_nil, or_false] at hq'
    rcases hq' with rfl | rfl | rfl
    · exact hb _ (.inl rfl)
    · exact hb _ (.inr (.inl rfl))
    · exact hb _ (.inr (.inr rfl))
  have hs : s.toP ∈ h.body := by
    have hcv : Convex ℝ h.body := convex_convexHull ℝ _
    have e : s.toP = (1 - v) • f.pa.toP + v • ((1 - u) • f.pb.toP + u • f.pc.toP) := by
      have hx := congrArg V3.x hz
      have hy := congrArg V3.y hz
      have hz := congrArg V3.z hz
      simp only [triPt, add_x, add_y, add_z, smul_x, smul_y, smul_z, sub_x, sub_y, sub_z, zeros_x, zeros_y, zeros_z] at hx hy hz
      refine Prod.ext ?_ (Prod.ext ?_ ?_) <;> simp [V3.toP]
      · linear_combination -hx
      · linear_combination -hy
      · linear_combination -hz
    rw [e]
    refine hcv (hmem _ (by simp)) (hcv (hmem _ (by simp)) (hmem _ (by simp)) ?_ hu.1 (by ring)) ?_ hv.1 (by ring)
    · linarith [hu.2]
    · linarith [hv.2]
  have hint : s.toP ∈ interior h.body := by
    by_contra hni
    exact hfr (by rw [h.body_compact.isClosed.frontier_eq]; exact ⟨hs, hni⟩)
  have := h2 _ hint
  rw [toP_toV] at this
  rw [rdot_sub] at h0
  linarith

/-- the slope of a face seen edge-on -/
theorem faceSlope_plane {f : Face ℝ} (hn : IsNormal f.un f.pa f.pb f.pc) {s : V3 ℝ} (h0 : rdot f.un (f.pa.sub s) = 0)
    (ho : OffTriangle f.pa f.pb f.pc s) (e d : V3 ℝ) :
    faceSlope f s e d = -(rdot f.un d * rdot (cross f.un (loopJ f.pa f.pb f.pc s)) e) := by
  rw [← faceW_plane hn h0 ho e]
  unfold faceSlope
  rw [h0]; ring

/-- **the tensor computed for a face seen edge-on** -/
theorem faceValue_tensor_plane (hh : h.IsHull) (hp : mkPoly h inHull = .ok p)
    {k : Nat} {f : Face ℝ} (hf : p.faces[k]? = some f) {s : V3 ℝ} (hc : p.ClearEdges s) (h0 : rdot f.un (f.pa.sub s) = 0)
    (ho : OffTriangle f.pa f.pb f.pc s) (ρ Gc : ℝ) {g : V3 ℝ × M3 ℝ}
    (hg : faceValue p s ρ Gc true k f = .ok g) : g.2 = upper (fun e d => 1000000000 * Gc * ρ * faceSlope f s e d) := by
  obtain ⟨t, -, hpts, -, hn, -, -⟩ := face_facts hh hp hf
  have hht : f.height s = 0 := h0
  have e : (eps <. Arith.abs (f.height s)) = false := by
    rw [Bool.eq_false_iff, ne_eq, r_lt, hht]
    have : (0 : ℝ) < repsilon := by unfold repsilon; positivity
    simp only [r_abs, abs_zero, not_lt, r_eps]
    exact this.le
  unfold faceValue omegaValue at hg
  rw [e] at hg
  simp only [Bool.false_eq_true, if_false] at hg
  obtain ⟨-, -, a, b, c, e0, e1, e2, hE, -, hpts', hh0, hh1, hh2⟩ := edges_of_hull hh hp hf
  have ea : f.pa = h.pt a := by unfold Face.pa; rw [hpts']; rfl
  have eb : f.pb = h.pt b := by unfold Face.pb; rw [hpts']; rfl
  have ec : f.pc = h.pt c := by unfold Face.pc; rw [hpts']; rfl
  rw [← ea, ← eb] at hh0
  rw [← eb, ← ec] at hh1
  rw [← ec, ← ea] at hh2
  have val : ∀ (j : Nat) (e : Edge ℝ), f.edges[j]? = some e → ∃ d, edgeValue p s true k e = .ok (V3.smul (lineJ (e.start.sub s) (e.fin.sub e.start)) (e.fin.sub e.start), d) := by
    intro j e he
    have hE : p.edgeAt k j = some e := by unfold Poly.edgeAt; rw [hf]; exact he
    obtain ⟨c1, c2⟩ := hc k j e hE
    obtain ⟨v, d, d', hv, hv'⟩ := C14_twin_value hh hp hE c1 c2 true
    have hpr := edge_proper hh hp hE
    obtain ⟨d2, hd2⟩ := edgeIntegral_clear hpr c1 true
    rw [hv] at hd2
    cases hd2
    rw [hpr.vector] at hv'
    exact ⟨d', hv'⟩
  obtain ⟨d0, v0⟩ := val 0 e0 (by rw [hE]; rfl)
  obtain ⟨d1, v1⟩ := val 1 e1 (by rw [hE]; rfl)
  obtain ⟨d2, v2⟩ := val 2 e2 (by rw [hE]; rfl)
  rw [hE] at hg
  simp only [edgesValue, v0, v1, v2, fieldOfEdges, Except.ok.injEq] at hg
  rw [← hg, hht]
  simp only [sumPqr, hh0, hh1, hh2]
  simp only [faceSlope_plane hn h0 ho]
  have gJ : ((V3.smul (lineJ (f.pa.sub s) (f.pb.sub f.pa)) (f.pb.sub f.pa)).add
        (V3.smul (lineJ (f.pb.sub s) (f.pc.sub f.pb)) (f.pc.sub f.pb))).add (V3.smul (lineJ (f.pc.sub s) (f.pa.sub f.pc)) (f.pa.sub f.pc)) = loopJ f.pa f.pb f.pc s := rfl
  rw [gJ]
  generalize loopJ f.pa f.pb f.pc s = J
  generalize sumDpqr [(V3.smul (lineJ (f.pb.sub s) (f.pc.sub f.pb)) (f.pc.sub f.pb), d1), (V3.smul (lineJ (f.pc.sub s) (f.pa.sub f.pc)) (f.pa.sub f.pc), d2)] (d0.getD M3.zeros) = D
  unfold faceField upper
  simp only [if_true]
  refine M3.ext' (V3.ext' ?_ ?_ ?_) (V3.ext' ?_ ?_ ?_) (V3.ext' ?_ ?_ ?_) <;> simp [rdot] <;> ring

/-- a position where the tensor is meaningful: off the surface of the body, and for every triangle regular and clear of its sides -/
structure Hull.TensorRegular (h : Hull ℝ) (s : V3 ℝ) : Prop where
  regular : h.Regular s
  clear : h.Clear s
  off : s.toP ∉ frontier h.body

/-- regular stations in no face plane -/
theorem Hull.OffPlanes.tensorRegular (hh : h.IsHull) {s : V3 ℝ} (hs : h.Regular s) (h0 : h.OffPlanes s) : h.TensorRegular s := by
  refine ⟨hs, ?_, ?_⟩
  · intro t ht
    rcases hs t ht with hz | ⟨-, h2⟩
    · exact absurd hz (h0 t ht)
    · exact h2
  · intro hfr
    rw [hh.cover] at hfr
    obtain ⟨t, ht, hq⟩ := hfr
    apply h0 t ht
    set N := cross ((h.pt t.2.1).sub (h.pt t.1)) ((h.pt t.2.2).sub (h.pt t.1))
    have hsub : h.tri t ⊆ {q | rowForm N q = rdot N (h.pt t.1)} := by
      unfold Hull.tri triangle
      apply convexHull_min _ (convex_hyperplane (rowForm N).isLinear _)
      intro q hq
      simp only [Set.mem_insert_iff, Set.mem_singleton_iff] at hq
      show rowForm N q = _
      rw [rowForm_apply]
      rcases hq with rfl | rfl | rfl <;> rw [toP_toV] <;> simp [N, rdot] <;> ring
    have := hsub hq
    rw [Set.mem_ofPred_eq, rowForm_apply, toP_toV] at this
    rw [rdot_sub, this, sub_self]

theorem returned_slopes (hh : h.IsHull) (hp : mkPoly h inHull = .ok p) {s : V3 ℝ} (hs : h.TensorRegular s) {ρ Gc : ℝ} {v : V3 ℝ × M3 ℝ}
    (hv : Call.onNew p ⟨s, ρ, Gc, true⟩ = .ok v) :
    v.2 = upper (fun e d => 1000000000 * Gc * ρ * ∑ k : Fin p.faces.length, faceSlope p.faces[k] s e d) := by
  rw [onNew_closed (wellTwinned_of_hull hh hp)] at hv
  have hce := clear_edges hh hp hs.clear
  have key : ∀ (φ : M3 ℝ → ℝ) (e d : V3 ℝ), (∀ a b, φ (a.add b) = φ a + φ b) → φ M3.zeros = 0 → (∀ B, φ (upper B) = B e d) →
      φ v.2 = 1000000000 * Gc * ρ * ∑ k : Fin p.faces.length, faceSlope p.faces[k] s e d := by
    intro φ e d h1 h2 h3
    have := facesValue_tensor (φ := φ) (ψ := fun f => 1000000000 * Gc * ρ * faceSlope f s e d) h1 p.faces 0 V3.zeros M3.zeros v (by
      intro k f g hk hg
      rw [Nat.zero_add] at hg
      by_cases h0 : rdot f.un (f.pa.sub s) = 0
      · rw [faceValue_tensor_plane hh hp hk hce h0 (offTriangle_of_plane hh hp hk hs.off h0) ρ Gc hg, h3]
      · rw [faceValue_tensor hh hp hk hs.regular h0 ρ Gc hg, h3]) hv
    rw [this, h2, zero_add, Finset.mul_sum]
    exact (Fin.sum_univ_fun_getElem p.faces (fun f => 1000000000 * Gc * ρ * faceSlope f s e d)).symm
  refine M3.ext' (V3.ext' ?_ ?_ ?_) (V3.ext' ?_ ?_ ?_) (V3.ext' ?_ ?_ ?_)
  · exact key (fun m => m.r0.x) _ _ (fun _ _ => rfl) rfl (fun _ => rfl)
  · exact key (fun m => m.r0.y) _ _ (fun _ _ => rfl) rfl (fun _ => rfl)
  · exact key (fun m => m.r0.z) _ _ (fun _ _ => rfl) rfl (fun _ => rfl)
  · exact key (fun m => m.r1.x) _ _ (fun _ _ => rfl) rfl (fun _ => rfl)
  · exact key (fun m => m.r1.y) _ _ (fun _ _ => rfl) rfl (fun _ => rfl)
  · exact key (fun m => m.r1.z) _ _ (fun _ _ => rfl) rfl (fun _ => rfl)
  · exact key (fun m => m.r2.x) _ _ (fun _ _ => rfl) rfl (fun _ => rfl)
  · exact key (fun m => m.r2.y) _ _ (fun _ _ => rfl) rfl (fun _ => rfl)
  · exact key (fun m => m.r2.z) _ _ (fun _ _ => rfl) rfl (fun _ => rfl)

section
variable {f : Face ℝ}

theorem faceSlope_skew' (hn : IsNormal f.un f.pa f.pb f.pc) {s : V3 ℝ} (ho : rdot f.un (f.pa.sub s) = 0 → OffTriangle f.pa f.pb f.pc s) (e d : V3 ℝ) :
    faceSlope f s e d - faceSlope f s d e = -rdot (cross e d) (loopJ f.pa f.pb f.pc s) := by
  by_cases h0 : rdot f.un (f.pa.sub s) = 0
  · have hJ : rdot f.un (loopJ f.pa f.pb f.pc s) = 0 := by
      obtain ⟨o1, o2⟩ := hn.ortho3
      unfold loopJ
      rw [rdot_add, rdot_add, rdot_smul, rdot_smul, rdot_smul, hn.ortho1, o1, o2]; ring
    have hu := hn.unit
    rw [faceSlope_plane hn h0 (ho h0), faceSlope_plane hn h0 (ho h0)]
    set J := loopJ f.pa f.pb f.pc s
    set n := f.un
    have key : rdot n e * rdot (cross n J) d - rdot n d * rdot (cross n J) e = -(rdot n n * rdot (cross e d) J) + rdot n J * rdot n (cross e d) := by
      simp [rdot]; ring
    rw [hu, hJ] at key
    linear_combination key
  · exact faceSlope_skew hn h0 e d

theorem faceSlope_linear' (hn : IsNormal f.un f.pa f.pb f.pc) {s : V3 ℝ} (ho : rdot f.un (f.pa.sub s) = 0 → OffTriangle f.pa f.pb f.pc s) (e d : V3 ℝ) :
    faceSlope f s e d = faceSlope f s e ⟨1, 0, 0⟩ * d.x + faceSlope f s e ⟨0, 1, 0⟩ * d.y + faceSlope f s e ⟨0, 0, 1⟩ * d.z := by
  by_cases h0 : rdot f.un (f.pa.sub s) = 0
  · simp only [faceSlope_plane hn h0 (ho h0)]
    simp only [rdot, mul_one, mul_zero, add_zero, zero_add]
    ring
  · exact faceSlope_linear hn h0 e d

theorem faceShare_path' (hn : IsNormal f.un f.pa f.pb f.pc) {s : V3 ℝ} (ho : rdot f.un (f.pa.sub s) = 0 → OffTriangle f.pa f.pb f.pc s) (e d : V3 ℝ) :
    HasDerivAt (fun x => faceShare f (s.add (V3.smul x d)) e) (faceSlope f s e d) 0 := by
  by_cases h0 : rdot f.un (f.pa.sub s) = 0
  · exact faceShare_plane hn h0 (ho h0) e d
  · exact faceShare_path hn h0 e d

end

/-- the attraction as a sum over the faces -/
theorem attraction_shares (hh : h.IsHull) (hp : mkPoly h inHull = .ok p) (s : V3 ℝ) :
    (attraction h.body s).x = ∑ k : Fin p.faces.length, faceShare p.faces[k] s ⟨1, 0, 0⟩ ∧
    (attraction h.body s).y = ∑ k : Fin p.faces.length, faceShare p.faces[k] s ⟨0, 1, 0⟩ ∧
    (attraction h.body s).z = ∑ k : Fin p.faces.length, faceShare p.faces[k] s ⟨0, 0, 1⟩ := by
  have hx := (newton_faces (hull_surface hh hp) s ⟨1, 0, 0⟩).2
  have hy := (newton_faces (hull_surface hh hp) s ⟨0, 1, 0⟩).2
  have hz := (newton_faces (hull_surface hh hp) s ⟨0, 0, 1⟩).2
  rw [kernelAt_x] at hx
  rw [kernelAt_y] at hy
  rw [kernelAt_z] at hz
  exact ⟨hx, hy, hz⟩

/-- **C19, in terms of Newton's law.**  At every station off the surface that is regular and clear of the sides of the triangles,
stations in face planes and on the lines of edges included, the rows of the returned tensor are `10⁹ Gc ρ` times the
derivatives of the attraction of the body along every direction. -/
theorem C19_newton (hh : h.IsHull) (hp : mkPoly h inHull = .ok p) {s : V3 ℝ} (hs : h.TensorRegular s) {ρ Gc : ℝ}
    {G : V3 ℝ} {T : M3 ℝ} (hv : Call.onNew p ⟨s, ρ, Gc, true⟩ = .ok (G, T)) (d : V3 ℝ) :
    HasDerivAt (fun x => 1000000000 * Gc * ρ * (attraction h.body (s.add (V3.smul x d))).x) (rdot T.r0 d) 0 ∧
    HasDerivAt (fun x => 1000000000 * Gc * ρ * (attraction h.body (s.add (V3.smul x d))).y) (rdot T.r1 d) 0 ∧
    HasDerivAt (fun x => 1000000000 * Gc * ρ * (attraction h.body (s.add (V3.smul x d))).z) (rdot T.r2 d) 0 := by
  have hT := returned_slopes hh hp hs hv
  simp only at hT
  have hk : ∀ k : Fin p.faces.length, IsNormal (p.faces[k]).un (p.faces[k]).pa (p.faces[k]).pb (p.faces[k]).pc ∧
      (rdot (p.faces[k]).un ((p.faces[k]).pa.sub s) = 0 → OffTriangle (p.faces[k]).pa (p.faces[k]).pb (p.faces[k]).pc s) := by
    intro k
    have hf : p.faces[(k : Nat)]? = some p.faces[k] := List.getElem?_eq_getElem k.2
    obtain ⟨-, -, -, -, hn, -, -⟩ := face_facts hh hp hf
    exact ⟨hn, offTriangle_of_plane hh hp hf hs.off⟩
  have hd : ∀ e : V3 ℝ, HasDerivAt (fun x => 1000000000 * Gc * ρ * ∑ k : Fin p.faces.length, faceShare p.faces[k] (s.add (V3.smul x d)) e)
      (1000000000 * Gc * ρ * ∑ k : Fin p.faces.length, faceSlope p.faces[k] s e d) 0 := by
    intro e
    exact (HasDerivAt.fun_sum (fun k _ => faceShare_path' (hk k).1 (hk k).2 e d)).const_mul _
  have lin : ∀ e, ∑ k : Fin p.faces.length, faceSlope p.faces[k] s e d =
      (∑ k : Fin p.faces.length, faceSlope p.faces[k] s e ⟨1, 0, 0⟩) * d.x + (∑ k : Fin p.faces.length, faceSlope p.faces[k] s e ⟨0, 1, 0⟩) * d.y +
      (∑ k : Fin p.faces.length, faceSlope p.faces[k] s e ⟨0, 0, 1⟩) * d.z := by
    intro e
    rw [Finset.sum_mul, Finset.sum_mul, Finset.sum_mul, ← Finset.sum_add_distrib, ← Finset.sum_add_distrib]
    exact Finset.sum_congr rfl fun k _ => faceSlope_linear' (hk k).1 (hk k).2 e d
  have sym : ∀ e d, ∑ k : Fin p.faces.length, faceSlope p.faces[k] s e d = ∑ k : Fin p.faces.length, faceSlope p.faces[k] s d e := by
    intro e d
    rw [← sub_eq_zero, ← Finset.sum_sub_distrib]
    have : ∀ k : Fin p.faces.length, faceSlope p.faces[k] s e d - faceSlope p.faces[k] s d e =
        -rdot (cross e d) (loopJ (p.faces[k]).pa (p.faces[k]).pb (p.faces[k]).pc s) := fun k => faceSlope_skew' (hk k).1 (hk k).2 e d
    simp only [this, Finset.sum_neg_distrib, loops_cancel hh hp, neg_zero]
  have hsh := fun x => attraction_shares hh hp (s.add (V3.smul x d))
  rw [hT]
  simp only [(hsh _).1, (hsh _).2.1, (hsh _).2.2]
  refine ⟨(hd ⟨1, 0, 0⟩).congr_deriv ?_, (hd ⟨0, 1, 0⟩).congr_deriv ?_, (hd ⟨0, 0, 1⟩).congr_deriv ?_⟩
  · rw [lin]; simp only [upper, rdot]; ring
  · rw [lin, sym ⟨0, 1, 0⟩ ⟨1, 0, 0⟩]; simp only [upper, rdot]; ring
  · rw [lin, sym ⟨0, 0, 1⟩ ⟨1, 0, 0⟩, sym ⟨0, 0, 1⟩ ⟨0, 1, 0⟩]; simp only [upper, rdot]; ring

/-- and at such a station the query with gradient does return a value -/
theorem C19_newton_returned (hh : h.IsHull) (hp : mkPoly h inHull = .ok p) {s : V3 ℝ} (hs : h.TensorRegular s) (ρ Gc : ℝ) :
    ∃ G T, Call.onNew p ⟨s, ρ, Gc, true⟩ = .ok (G, T) := by
  obtain ⟨v, hv⟩ := onNew_ok_of_clear hh hp (clear_edges hh hp hs.clear) ρ Gc true
  exact ⟨v.1, v.2, hv⟩

end
end Geec
