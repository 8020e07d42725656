import Verif.Lemmas.ExtendsSum
import Verif.Lemmas.Partial
import Verif.Props.Precision
import Verif.Props.TensorLaws
import Verif.Props.EdgeLine
import Verif.Props.NotANumber
/-
C106: no operation of a query is used outside of its domain, so the answers do not depend on what the arithmetic makes of
`1/0`, `log 0`, `sqrt (-1)` or `acos 2`: NaN, an infinity, or (as in the real numbers of Mathlib) some number.
-/
namespace Geec
open Arith

section
variable {S : Type} [Arith S] {ι : ℝ → S} {h : Hull ℝ} {inHull : V3 ℝ → Bool} {p : Poly ℝ}

/-- **C106**, construction: in every arithmetic that agrees with the real numbers where the operations are defined, the same
polyhedron is constructed. -/
theorem C106_constructs (E : Extends ι) (hh : h.IsHull) (hp : mkPoly h inHull = .ok p) (inHull' : V3 S → Bool) :
    mkPoly (h.map ι) inHull' = .ok (p.map ι) := by
  rw [E.mkPoly hh inHull inHull', hp]
  rfl

/-- **C106**, queries: the answer to every query at a station that is no corner is that of the real numbers, in every
arithmetic that agrees with them where the operations are defined.  With gradient always; without gradient away from the
exceptional places of `Hull.Tame`, where the claim is false (`C106_false`). -/
theorem C106_partial (E : Extends ι) (hh : h.IsHull) (hp : mkPoly h inHull = .ok p) (c : Call ℝ)
    (hs : ∀ t ∈ h.simplices, ∀ i, Corner t i → h.pt i ≠ c.obs) (ht : c.gradient = false → h.Tame c.obs) :
    (c.map ι).onNew (p.map ι) = (c.onNew p).map (answerMap ι) :=
  E.onNew hh hp c hs fun hg => (ht hg).poly hh hp

/-- a station whose distance from no corner is the length of an edge there -/
theorem Hull.tame_of_lengths {s : V3 ℝ} (hl : ∀ t ∈ h.simplices, ∀ i j, Corner t i → Corner t j → i ≠ j →
    vlen ((h.pt j).sub (h.pt i)) ≠ vlen ((h.pt i).sub s)) : h.Tame s :=
  fun t ht i j hi hj hij h0 => absurd h0 (hl t ht i j hi hj hij)

/-- a station that is clear of the lines of the edges -/
theorem Hull.Aside.tame {s : V3 ℝ} (hs : h.Aside s) (hc : ∀ t ∈ h.simplices, ∀ i, Corner t i → repsilon < vlen ((h.pt i).sub s)) : h.Tame s :=
  fun t ht i j hi hj hij _ => ⟨hc t ht i hi, (hs t ht i j hi hj hij).2.ne'⟩

/-- **C106**, Newton's law: the attraction is that of the body, in every such arithmetic. -/
theorem C106_newton (E : Extends ι) (hh : h.IsHull) (hp : mkPoly h inHull = .ok p) {s : V3 ℝ} (hr : h.Regular s)
    (hs : ∀ t ∈ h.simplices, ∀ i, Corner t i → h.pt i ≠ s) (ht : h.Tame s) (ρ Gc : ℝ) :
    ∃ T, (Call.mk (s.map ι) (ι ρ) (ι Gc) false).onNew (p.map ι) = .ok ((V3.smul (100000 * Gc * ρ) (attraction h.body s)).map ι, T) := by
  obtain ⟨T, hT⟩ := C16_newton_returned hh hp hr hs ρ Gc
  have := C106_partial E hh hp ⟨s, ρ, Gc, false⟩ hs (fun _ => ht)
  rw [hT] at this
  exact ⟨_, this⟩

/-- **C106**, tensor: it is the derivative of the attraction of the body, in every such arithmetic. -/
theorem C106_tensor (E : Extends ι) (hh : h.IsHull) (hp : mkPoly h inHull = .ok p) {s : V3 ℝ} (hr : h.TensorRegular s)
    (hs : ∀ t ∈ h.simplices, ∀ i, Corner t i → h.pt i ≠ s) (ρ Gc : ℝ) :
    ∃ T : M3 ℝ, (Call.mk (s.map ι) (ι ρ) (ι Gc) true).onNew (p.map ι) = .ok ((V3.smul (100000 * Gc * ρ) (attraction h.body s)).map ι, T.map ι) ∧
      ∀ d : V3 ℝ, HasDerivAt (fun x => 1000000000 * Gc * ρ * (attraction h.body (s.add (V3.smul x d))).x) (rdot T.r0 d) 0 ∧
        HasDerivAt (fun x => 1000000000 * Gc * ρ * (attraction h.body (s.add (V3.smul x d))).y) (rdot T.r1 d) 0 ∧
        HasDerivAt (fun x => 1000000000 * Gc * ρ * (attraction h.body (s.add (V3.smul x d))).z) (rdot T.r2 d) 0 := by
  obtain ⟨G, T, hT⟩ := C19_newton_returned hh hp hr ρ Gc
  have := C106_partial E hh hp ⟨s, ρ, Gc, true⟩ hs (fun h => by cases h)
  rw [hT] at this
  refine ⟨T, ?_, fun d => C19_newton hh hp hr hT d⟩
  rw [← (C16_newton hh hp hr.regular hT).1]
  exact this

end

/-- real arithmetic with NaN agrees with the real numbers where the operations are defined -/
theorem nan_extends : @Extends (Option ℝ) nanArith some := by
  refine @Extends.mk _ nanArith _ rfl rfl rfl rfl rfl rfl rfl rfl (fun _ => rfl) (fun _ _ => rfl) (fun _ _ => rfl) (fun _ _ => rfl) ?_ (fun _ => rfl)
    (fun _ => rfl) ?_ ?_ ?_ ?_ ?_ (fun _ _ => rfl) (fun _ _ => rfl) (fun _ => rfl) (fun _ => rfl)
  · intro a b h
    show (if b = 0 then none else some (a / b)) = _
    rw [if_neg h]
  · intro a h
    show (if a < 0 then none else some _) = _
    rw [if_neg (not_lt.mpr h)]
  · intro a h
    show (if a ≤ 0 then none else some _) = _
    rw [if_neg (not_le.mpr h)]
  · intro a h1 h2
    show (if a < -1 ∨ 1 < a then none else some _) = _
    rw [if_neg]
    rintro (h | h) <;> linarith
  · intro a b
    refine Iff.trans (@decide_eq_true_iff _ (Classical.propDecidable _)) ?_
    simp
  · intro a b
    refine Iff.trans (@decide_eq_true_iff _ _) ?_
    simp [eq_comm]

/-- **C106**, NaN does not arise: with the arithmetic in which whatever is undefined is NaN and stays it, an answer consists of
numbers only. -/
theorem C106_no_nan {h : Hull ℝ} {inHull : V3 ℝ → Bool} {p : Poly ℝ} (hh : h.IsHull) (hp : mkPoly h inHull = .ok p) (c : Call ℝ)
    (hs : ∀ t ∈ h.simplices, ∀ i, Corner t i → h.pt i ≠ c.obs) (ht : c.gradient = false → h.Tame c.obs) {G : V3 (Option ℝ)} {T : M3 (Option ℝ)}
    (hv : @Call.onNew _ nanArith (p.map some) (c.map some) = .ok (G, T)) :
    ∃ (g : V3 ℝ) (t : M3 ℝ), G = ⟨some g.x, some g.y, some g.z⟩ ∧
      T = ⟨⟨some t.r0.x, some t.r0.y, some t.r0.z⟩, ⟨some t.r1.x, some t.r1.y, some t.r1.z⟩, ⟨some t.r2.x, some t.r2.y, some t.r2.z⟩⟩ ∧
      c.onNew p = .ok (g, t) := by
  rw [@C106_partial _ nanArith _ _ _ _ nan_extends hh hp c hs ht] at hv
  rcases hx : c.onNew p with x | ⟨g, t⟩
  · rw [hx] at hv; cases hv
  · rw [hx] at hv
    cases hv
    exact ⟨g, t, rfl, rfl, rfl⟩

/-! ### the exceptional places -/

section
variable {S : Type} [Arith S] {ι : ℝ → S}

/-- the integral over an edge with the station at its exceptional place: the logarithm of zero -/
theorem untame_edge (E : Extends ι) {e : Edge ℝ} (pr : e.Proper) {s : V3 ℝ} (h2 : e.fin ≠ s) (hr : repsilon < vlen (e.start.sub s))
    (hl : vlen (e.fin.sub e.start) = vlen (e.start.sub s))
    (hc : vlen (e.start.sub s) + rdot (e.start.sub s) (e.fin.sub e.start) / vlen (e.fin.sub e.start) = repsilon) :
    edgeIntegral (e.map ι) (s.map ι) false = .ok (((((e.fin.sub e.start).sdiv e.length).map ι).smul (log (ι 0))).smul (ι 1), none) := by
  have e0 := Extends.repsilon_pos
  have hR : 0 < vlen (e.start.sub s) := e0.trans hr
  have hR2 : 0 < vlen (e.fin.sub s) := vlen_pos (sub_ne_zeros (Ne.symm h2))
  have hlen : e.length = vlen (e.start.sub s) := by rw [pr.length, pr.vector, hl]
  have hl0 : e.length ≠ 0 := by rw [hlen]; exact hR.ne'
  have hm : ∀ a b : V3 ℝ, Arith.norm a *. Arith.norm b = vlen a * vlen b := fun _ _ => rfl
  have hn : Arith.norm (e.start.sub s) *. Arith.norm (e.fin.sub s) ≠ 0 := mul_ne_zero hR.ne' hR2.ne'
  have hst : (e.map ι).start = e.start.map ι := rfl
  have hfi : (e.map ι).fin = e.fin.map ι := rfl
  have hve : (e.map ι).vector = e.vector.map ι := rfl
  have hle : (e.map ι).length = ι e.length := rfl
  have two0 : (Arith.two : ℝ) ≠ 0 := two_ne_zero' ℝ
  rw [Extends.edgeIntegral_tail, if_neg]
  · have hb : Arith.two *. Arith.dot (e.start.sub s) (e.fin.sub e.start) /. e.length /. Arith.two =
        rdot (e.start.sub s) (e.fin.sub e.start) / vlen (e.fin.sub e.start) := by
      show 2 * rdot (e.start.sub s) (e.fin.sub e.start) / e.length / 2 = _
      rw [pr.length, pr.vector]
      ring
    have hc' : Arith.norm (e.start.sub s) +. rdot (e.start.sub s) (e.fin.sub e.start) / vlen (e.fin.sub e.start) = repsilon := hc
    have f1 : (Arith.abs repsilon <. (Arith.eps : ℝ)) = false := by
      rw [← Bool.not_eq_true, r_lt]
      show ¬ |repsilon| < repsilon
      rw [abs_of_pos e0]; exact lt_irrefl _
    have f2 : ((Arith.eps : ℝ) <. Arith.abs repsilon) = false := by
      rw [← Bool.not_eq_true, r_lt]
      show ¬ repsilon < |repsilon|
      rw [abs_of_pos e0]; exact lt_irrefl _
    have hd : numbaDiv (Arith.abs (e.length -. Arith.norm (e.start.sub s))) (Arith.norm (e.start.sub s)) = .ok 0 := by
      have hz : e.length -. Arith.norm (e.start.sub s) = 0 := by
        show e.length - vlen (e.start.sub s) = 0
        rw [hlen, sub_self]
      unfold numbaDiv
      rw [if_neg (by rw [r_eq]; exact hR.ne'), hz]
      show Except.ok (|(0 : ℝ)| / _) = _
      rw [abs_zero, zero_div]
    unfold Extends.edgeTail lineIntegralAlongEdge
    simp only [hst, hve, hle, E.vsub, E.norm', E.two', E.dot', E.mul', E.div' _ hl0, E.div' _ two0, E.add', E.abs', E.eps', E.lt', hb, hc', f1, f2, Bool.false_eq_true,
      if_false, E.sub', E.numbaDiv, hd, Except.map, bind, Except.bind, pure, Except.pure, E.vsdiv hl0, pr.vector]
    rw [E.one]
  · simp only [hst, hfi, E.vsub, E.norm', E.dot', E.mul', E.div' _ hn, E.lt', E.one', E.eq', Bool.and_eq_true, r_lt, r_eq]
    rintro ⟨k1, k2⟩
    have k1 : vlen (e.fin.sub s) < vlen (e.start.sub s) := k1
    have k2 : rdot (e.start.sub s) (e.fin.sub s) / (vlen (e.start.sub s) * vlen (e.fin.sub s)) = 1 := k2
    rw [div_eq_one_iff_eq (mul_pos hR hR2).ne'] at k2
    have hq : rdot (e.fin.sub e.start) (e.fin.sub e.start) = rdot (e.fin.sub s) (e.fin.sub s) - 2 * rdot (e.start.sub s) (e.fin.sub s) + rdot (e.start.sub s) (e.start.sub s) := by
      simp only [rdot, V3.sub, r_sub]
      ring
    have h3 : vlen (e.fin.sub e.start) * vlen (e.fin.sub e.start) = rdot (e.fin.sub e.start) (e.fin.sub e.start) := vlen_sq _
    rw [hq, k2, ← vlen_sq (e.fin.sub s), ← vlen_sq (e.start.sub s), hl] at h3
    nlinarith

/-- without gradient no integral over an edge raises at a station that is not its end -/
theorem edge_returns (E : Extends ι) {e : Edge ℝ} (pr : e.Proper) {s : V3 ℝ} (h1 : e.start ≠ s) (h2 : e.fin ≠ s) :
    ∃ v, edgeIntegral (e.map ι) (s.map ι) false = .ok v := by
  have hl0 : e.length ≠ 0 := by rw [pr.length, pr.vector]; exact (vlen_pos (sub_ne_zeros pr.ne)).ne'
  have two0 : (Arith.two : ℝ) ≠ 0 := two_ne_zero' ℝ
  have key : ∀ (R : V3 ℝ) (c : S), R ≠ V3.zeros → ∃ v, Extends.edgeTail (e.map ι) (R.map ι) (ι (vlen R)) c false = .ok v := by
    intro R c hR
    have hve : (e.map ι).vector = e.vector.map ι := rfl
    have hle : (e.map ι).length = ι e.length := rfl
    have hd : ∀ (x : S) (y : ℝ), y ≠ 0 → numbaDiv x (ι y) = .ok (x /. ι y) := by
      intro x y hy
      unfold numbaDiv
      rw [if_neg]
      rw [E.zero', E.eq', r_eq]
      exact hy
    have hline : ∀ (k : ℝ) (L : V3 S) (l : S) (b2 bj : S), ∃ v, lineIntegralAlongEdge (ι k) L l (R.map ι) (ι (vlen R)) b2 bj false = .ok v := by
      intro k L l b2 bj
      unfold lineIntegralAlongEdge
      simp only [E.eps', E.abs', E.lt', hd _ _ (vlen_pos hR).ne', Bool.false_eq_true, if_false, bind, Except.bind, pure, Except.pure]
      split
      · next hk =>
        rw [r_lt] at hk
        have : k ≠ 0 := by
          rintro rfl
          have : repsilon < |(0 : ℝ)| := hk
          rw [abs_zero] at this
          exact absurd this (not_lt.mpr Extends.repsilon_pos.le)
        rw [hd _ _ this]
        exact ⟨_, rfl⟩
      · exact ⟨_, rfl⟩
    unfold Extends.edgeTail
    simp only [hve, hle, E.two', E.dot', E.mul', E.div' _ hl0, E.div' _ two0, E.add', E.abs', E.eps', E.lt', E.neg', bind, Except.bind]
    cases hfl : (Arith.abs (vlen R +. Arith.two *. Arith.dot R e.vector /. e.length /. Arith.two) <. (Arith.eps : ℝ)) with
    | true =>
      simp only [if_true, E.div' _ hl0, E.div' _ two0, E.add']
      obtain ⟨v, hv⟩ := hline (vlen R +. Arith.neg (Arith.two *. Arith.dot R e.vector) /. e.length /. Arith.two) (e.vector.map ι).neg (ι e.length)
        (ι (Arith.neg (Arith.two *. Arith.dot R e.vector) /. e.length /. Arith.two)) (ι (Arith.neg (Arith.two *. Arith.dot R e.vector)))
      rw [hv]
      exact ⟨_, rfl⟩
    | false =>
      simp only [Bool.false_eq_true, if_false, E.add']
      obtain ⟨v, hv⟩ := hline (vlen R +. Arith.two *. Arith.dot R e.vector /. e.length /. Arith.two) (e.vector.map ι) (ι e.length)
        (ι (Arith.two *. Arith.dot R e.vector /. e.length /. Arith.two)) (ι (Arith.two *. Arith.dot R e.vector))
      rw [hv]
      exact ⟨_, rfl⟩
  have hst : (e.map ι).start = e.start.map ι := rfl
  have hfi : (e.map ι).fin = e.fin.map ι := rfl
  rw [Extends.edgeIntegral_tail, hst, hfi, E.vsub, E.vsub, E.norm', E.norm']
  split
  · exact key _ _ (sub_ne_zeros (Ne.symm h2))
  · exact key _ _ (sub_ne_zeros (Ne.symm h1))

/-- without gradient no query raises at a station that is no corner -/
theorem C106_returns (E : Extends ι) {h : Hull ℝ} (hh : h.IsHull) {inHull : V3 ℝ → Bool} {p : Poly ℝ} (hp : mkPoly h inHull = .ok p) {s : V3 ℝ}
    (hs : ∀ t ∈ h.simplices, ∀ i, Corner t i → h.pt i ≠ s) (ρ Gc : S) : ∃ a, (Call.mk (s.map ι) ρ Gc false).onNew (p.map ι) = .ok a := by
  have hw := wellTwinned_of_hull hh hp
  rw [onNew_closed (Extends.wellTwinned hw)]
  refine facesValue_ok _ _ _ _ fun k f' hf' => ?_
  rw [Nat.zero_add]
  have hf'' : (p.faces.map (Face.map ι))[k]? = some f' := hf'
  rw [List.getElem?_map, Option.map_eq_some_iff] at hf''
  obtain ⟨f, hf, rfl⟩ := hf''
  have hedge : ∀ i j e, p.edgeAt i j = some e → ∃ v, edgeIntegral (e.map ι) (s.map ι) false = .ok v := by
    intro i j e he
    obtain ⟨t, ht, ⟨a, ha, ea⟩, b, hb, eb⟩ := edge_start_corner hh hp he
    have hm := List.mem_of_getElem? ht
    exact edge_returns E (edge_proper hh hp he) (by rw [ea]; exact hs t hm a ha) (by rw [eb]; exact hs t hm b hb)
  obtain ⟨w, hw0⟩ : ∃ w, omegaValue (f.map ι) (s.map ι) false = .ok w := by
    rw [E.omegaValue hh hp hf]
    obtain ⟨w, hw'⟩ := omegaValue_ok f s false
    exact ⟨_, by rw [hw']; rfl⟩
  obtain ⟨vs, hvs, hl⟩ := edgesValue_ok (p := p.map ι) (obs := s.map ι) (gr := false) (i := k) (es := (f.map ι).edges) (by
    intro e he
    obtain ⟨e0, he0, rfl⟩ := List.mem_map.mp he
    obtain ⟨j, hj⟩ := List.getElem?_of_mem he0
    have hk : p.edgeAt k j = some e0 := by unfold Poly.edgeAt; rw [hf]; exact hj
    obtain ⟨i', j', e', t1, t2, -, -⟩ := hw k j e0 hk
    have t1' : (e0.map ι).twin = some (i', j') := t1
    have t2' : (p.map ι).edgeAt i' j' = some (e'.map ι) := by rw [Extends.edgeAt, t2]; rfl
    unfold edgeValue
    simp only [t1', t2']
    split
    · obtain ⟨v, hv⟩ := hedge _ _ _ t2
      exact ⟨_, by rw [hv]; rfl⟩
    · exact hedge _ _ _ hk)
  obtain ⟨t, ht, a, b, c, x0, x1, x2, hE, -⟩ := edges_of_hull hh hp hf
  have hl3 : (f.map ι).edges.length = 3 := by
    show (f.edges.map (Edge.map ι)).length = 3
    rw [hE]; rfl
  simp only [faceValue, hw0, hvs]
  cases vs with
  | nil => rw [hl3] at hl; simp at hl
  | cons v vs => exact ⟨_, rfl⟩

/-- NaN in the integral over an edge that is computed makes the attraction NaN -/
theorem nan_face {N : S → Prop} (hN : NaNLike N) {p : Poly S} (hw : p.WellTwinned) {k j i' j' : Nat} {e : Edge S} (hat : p.edgeAt k j = some e)
    (htw : e.twin = some (i', j')) (hk : k ≤ i') {c : Call S} {v : V3 S × Option (M3 S)} (hv : edgeIntegral e c.obs c.gradient = .ok v) (hn : v.1.All N)
    {G : V3 S} {T : M3 S} (h : c.onNew p = .ok (G, T)) : G.All N := by
  obtain ⟨f, hf, he⟩ : ∃ f, p.faces[k]? = some f ∧ e ∈ f.edges := by
    unfold Poly.edgeAt at hat
    rcases hfi : p.faces[k]? with _ | f
    · rw [hfi] at hat; cases hat
    · rw [hfi] at hat; exact ⟨f, rfl, List.mem_of_getElem? hat⟩
  have hval : edgeValue p c.obs c.gradient k e = .ok v := by
    unfold edgeValue
    rw [htw]
    simp only [not_lt.mpr hk, if_false]
    exact hv
  have hvs : ∀ (es : List (Edge S)) vs, e ∈ es → edgesValue p c.obs c.gradient k es = .ok vs → v ∈ vs := by
    intro es
    induction es with
    | nil => intro vs h; cases h
    | cons e' es ih =>
      intro vs hm h
      simp only [edgesValue] at h
      rcases hx : edgeValue p c.obs c.gradient k e' with x | x <;> rw [hx] at h
      · cases h
      · simp only at h
        rcases hy : edgesValue p c.obs c.gradient k es with y | y <;> rw [hy] at h
        · cases h
        · cases h
          rcases List.mem_cons.mp hm with rfl | hm
          · rw [hval] at hx
            cases hx
            exact List.mem_cons_self
          · exact List.mem_cons_of_mem _ (ih _ hm hy)
  have hsum : ∀ (vs : List (V3 S × Option (M3 S))) a, a.All N ∨ v ∈ vs → (sumPqr vs a).All N := by
    intro vs
    induction vs with
    | nil => intro a h; exact h.resolve_right (by simp)
    | cons u vs ih =>
      intro a h
      refine ih _ ?_
      rcases h with h | h
      · exact .inl (hN.vadd (.inl h))
      · rcases List.mem_cons.mp h with rfl | h
        · exact .inl (hN.vadd (.inr hn))
        · exact .inr h
  have hfaces : ∀ (fs : List (Face S)) i G T r, G.All N → facesValue p c.obs c.density c.Gc c.gradient i fs G T = .ok r → r.1.All N := by
    intro fs
    induction fs with
    | nil => intro i G T r hG h; cases h; exact hG
    | cons f fs ih =>
      intro i G T r hG h
      simp only [facesValue] at h
      rcases hx : faceValue p c.obs c.density c.Gc c.gradient i f with x | ⟨g, t⟩ <;> rw [hx] at h
      · cases h
      · exact ih _ _ _ _ (hN.vadd (.inl hG)) h
  have hface : ∀ g t, faceValue p c.obs c.density c.Gc c.gradient k f = .ok (g, t) → g.All N := by
    intro g t hx
    unfold faceValue at hx
    rcases ho : omegaValue f c.obs c.gradient with x | w <;> rw [ho] at hx
    · cases hx
    · simp only at hx
      rcases hy : edgesValue p c.obs c.gradient k f.edges with y | vs <;> rw [hy] at hx
      · cases hx
      · have hm := hvs _ _ he hy
        rcases vs with _ | ⟨u, vs⟩
        · cases hm
        · have hq : (sumPqr vs u.1).All N := by
            refine hsum _ _ ?_
            rcases List.mem_cons.mp hm with rfl | h
            · exact .inl hn
            · exact .inr h
          have hx : faceField f.un (f.height c.obs) w.1 w.2 (sumPqr vs u.1) (sumDpqr vs (u.2.getD M3.zeros)) c.density c.Gc c.gradient = (g, t) := Except.ok.inj hx
          have hg : g = (faceField f.un (f.height c.obs) w.1 w.2 (sumPqr vs u.1) (sumDpqr vs (u.2.getD M3.zeros)) c.density c.Gc c.gradient).1 := by rw [hx]
          obtain ⟨q1, q2, q3⟩ := hq
          rw [hg]
          unfold faceField
          cases c.gradient
          all_goals
            simp only [if_true, Bool.false_eq_true, if_false]
            exact ⟨hN.mul (.inr (hN.sub (.inl (hN.add (.inr (hN.mul (.inr q2))))))), hN.mul (.inr (hN.sub (.inl (hN.add (.inr (hN.mul (.inr q3))))))),
              hN.mul (.inr (hN.sub (.inl (hN.add (.inr (hN.mul (.inr q1)))))))⟩
  have hfrom : ∀ (fs : List (Face S)) i m G T r, fs[m]? = some f → i + m = k → facesValue p c.obs c.density c.Gc c.gradient i fs G T = .ok r → r.1.All N := by
    intro fs
    induction fs with
    | nil => intro i m G T r hm; simp at hm
    | cons f' fs ih =>
      intro i m G T r hm him h
      simp only [facesValue] at h
      rcases hx : faceValue p c.obs c.density c.Gc c.gradient i f' with x | ⟨g, t⟩ <;> rw [hx] at h
      · cases h
      · rcases m with _ | m
        · simp only [List.getElem?_cons_zero, Option.some.injEq] at hm
          rw [Nat.add_zero] at him
          subst hm him
          exact hfaces _ _ _ _ _ (hN.vadd (.inr (hface _ _ hx))) h
        · exact ih _ m _ _ _ hm (by omega) h
  rw [onNew_closed hw] at h
  exact hfrom _ _ k _ _ _ hf (Nat.zero_add k) h

end

/-- a point two hundredths of a micron from the corner (0,1,0) of the unit tetrahedron -/
noncomputable def untamePlace : V3 ℝ := ⟨-Real.sqrt (2 * repsilon - repsilon ^ 2), 1 - repsilon, 0⟩

theorem untamePlace_corner : ∀ t ∈ tetra.simplices, ∀ i, Corner t i → tetra.pt i ≠ untamePlace := by
  have e0 : (0 : ℝ) < repsilon := by unfold repsilon; positivity
  have e1 : repsilon < 1 := by unfold repsilon; norm_num
  intro t ht i hi h
  have : i < 4 := tetra_isHull.cornerIndex t ht i hi
  have hx := congrArg V3.y h
  simp only [untamePlace] at hx
  interval_cases i
  · rw [tetra_pt0] at hx; simp only at hx; linarith
  · rw [tetra_pt1] at hx; simp only at hx; linarith
  · rw [tetra_pt2] at hx; simp only at hx; linarith
  · rw [tetra_pt3] at hx; simp only at hx; linarith

/-- **C106** is false without the proviso: at a place two hundredths of a micron from a corner of the unit tetrahedron, and not
at a corner, the code takes the logarithm of zero.  `get_gravity` without gradient does not raise; it returns an attraction
none of whose components is a number. -/
theorem C106_not_a_number {inHull : V3 ℝ → Bool} {p : Poly ℝ} (hp : mkPoly tetra inHull = .ok p) (ρ Gc : ℝ) :
    ∃ T, @Call.onNew _ nanArith (p.map some) ⟨untamePlace.map some, some ρ, some Gc, false⟩ = .ok (⟨none, none, none⟩, T) := by
  let _ := nanArith
  have e0 : (0 : ℝ) < repsilon := by unfold repsilon; positivity
  have e1 : repsilon < 1 := by unfold repsilon; norm_num
  obtain ⟨⟨G, T⟩, hGT⟩ := C106_returns nan_extends tetra_isHull hp untamePlace_corner (some ρ) (some Gc)
  refine ⟨T, ?_⟩
  have hlen : 0 < p.faces.length := by rw [(C24_counter_clockwise tetra_isHull hp).1]; decide
  have hf0 : p.faces[0]? = some p.faces[0] := List.getElem?_eq_getElem hlen
  obtain ⟨a, b, c, x0, x1, x2, hE, hor, h0, h1, h2⟩ := orient0 hp hf0
  have hex : ∃ j e, p.edgeAt 0 j = some e ∧ e ∈ p.faces[0].edges ∧ e.start = tetra.pt 0 ∧ e.fin = tetra.pt 2 := by
    unfold Poly.edgeAt
    rw [hf0]
    simp only [Option.bind_some, hE]
    rcases hor with ⟨rfl, rfl, rfl⟩ | ⟨rfl, rfl, rfl⟩ | ⟨rfl, rfl, rfl⟩
    · exact ⟨0, x0, rfl, by simp, h0⟩
    · exact ⟨2, x2, rfl, by simp, h2⟩
    · exact ⟨1, x1, rfl, by simp, h1⟩
  obtain ⟨j, e, hj, hm, hs, hfin⟩ := hex
  have hsq : 0 ≤ 2 * repsilon - repsilon ^ 2 := by nlinarith
  have hR : (e.start.sub untamePlace) = ⟨Real.sqrt (2 * repsilon - repsilon ^ 2), -(1 - repsilon), 0⟩ := by
    rw [hs, tetra_pt0]; refine V3.ext' ?_ ?_ ?_ <;> simp [untamePlace]
  have hL : (e.fin.sub e.start) = ⟨0, 1, 0⟩ := by
    rw [hs, hfin, tetra_pt0, tetra_pt2]; refine V3.ext' ?_ ?_ ?_ <;> simp
  have vR : vlen (e.start.sub untamePlace) = 1 := by
    unfold vlen
    rw [hR, Real.sqrt_eq_one]
    simp only [rdot]
    rw [Real.mul_self_sqrt hsq]
    ring
  have vL : vlen (e.fin.sub e.start) = 1 := by
    unfold vlen
    rw [hL, Real.sqrt_eq_one]
    simp [rdot]
  have hedge := untame_edge nan_extends (edge_proper tetra_isHull hp hj) (s := untamePlace)
    (by rw [hfin]; exact untamePlace_corner (0, 1, 2) (by simp [tetra]) 2 (by simp [Corner])) (by rw [vR]; exact e1) (by rw [vL, vR])
    (by rw [vR, vL, hR, hL]; simp [rdot])
  obtain ⟨i', j', -, t1, -, -, -⟩ := wellTwinned_of_hull tetra_isHull hp 0 j e hj
  have hlog : Arith.log (some (0 : ℝ)) = none := by
    show (if (0 : ℝ) ≤ 0 then none else _) = none
    rw [if_pos le_rfl]
  obtain ⟨g1, g2, g3⟩ := nan_face nan_nanLike (Extends.wellTwinned (wellTwinned_of_hull tetra_isHull hp)) (e := e.map some)
    (by rw [Extends.edgeAt, hj]; rfl) (show (e.map some).twin = some (i', j') from t1) (Nat.zero_le _) (c := ⟨untamePlace.map some, some ρ, some Gc, false⟩) hedge (by
      rw [hlog]
      exact ⟨rfl, rfl, rfl⟩) hGT
  rw [hGT]
  obtain ⟨gx, gy, gz⟩ := G
  simp only at g1 g2 g3
  rw [g1, g2, g3]

/-- **C106** as stated for all stations that are no corners is false. -/
theorem C106_false : ¬ ∀ (h : Hull ℝ) (_ : h.IsHull) (inHull : V3 ℝ → Bool) (p : Poly ℝ) (_ : mkPoly h inHull = .ok p) (c : Call ℝ)
    (_ : ∀ t ∈ h.simplices, ∀ i, Corner t i → h.pt i ≠ c.obs),
    @Call.onNew _ nanArith (p.map some) (c.map some) = (c.onNew p).map (answerMap some) := by
  intro H
  obtain ⟨p, hp⟩ := hull_mkPoly_ok tetra_isHull (fun _ => true)
  have := H tetra tetra_isHull _ p hp ⟨untamePlace, 1, 1, false⟩ untamePlace_corner
  obtain ⟨T, hT⟩ := C106_not_a_number hp 1 1
  rw [show (Call.mk untamePlace (1 : ℝ) 1 false).map some = ⟨untamePlace.map some, some 1, some 1, false⟩ from rfl, hT] at this
  obtain ⟨G, T', hG⟩ := C22_total tetra_isHull hp untamePlace_corner 1 1
  rw [hG] at this
  have := congrArg Prod.fst (Except.ok.inj this)
  exact absurd (congrArg V3.x this) (by simp [answerMap, V3.map])

/-- C106: the unit tetrahedron from (2,3,5): numbers, and those of Newton's law -/
example : ∃ p, mkPoly tetra (fun _ => true) = .ok p ∧ @mkPoly _ nanArith (tetra.map some) (fun _ => true) = .ok (p.map some) ∧
    (∃ T, @Call.onNew _ nanArith (p.map some) ⟨⟨some 2, some 3, some 5⟩, some 2670, some 1, false⟩ =
      .ok ((V3.smul (100000 * 1 * 2670) (attraction tetra.body ⟨2, 3, 5⟩)).map some, T)) ∧
    ∃ (g : V3 ℝ) (t : M3 ℝ), @Call.onNew _ nanArith (p.map some) ⟨⟨some 2, some 3, some 5⟩, some 2670, some 1, true⟩ = .ok (g.map some, t.map some) := by
  obtain ⟨p, hp⟩ := hull_mkPoly_ok tetra_isHull (fun _ => true)
  have ht : tetra.Tame ⟨2, 3, 5⟩ := tetra_aside.tame fun t ht i hi => by
    have : i < 4 := tetra_isHull.cornerIndex t ht i hi
    have e1 : repsilon < 1 := by unfold repsilon; norm_num
    refine e1.trans ?_
    unfold vlen
    apply Real.lt_sqrt_of_sq_lt
    interval_cases i
    · rw [tetra_pt0]; simp [rdot]; norm_num
    · rw [tetra_pt1]; simp [rdot]; norm_num
    · rw [tetra_pt2]; simp [rdot]; norm_num
    · rw [tetra_pt3]; simp [rdot]; norm_num
  obtain ⟨T, hT, -⟩ := @C106_tensor _ nanArith _ _ _ _ nan_extends tetra_isHull hp _ tetra_tensorRegular_out tetra_out_corner 2670 1
  exact ⟨p, hp, @C106_constructs _ nanArith _ _ _ _ nan_extends tetra_isHull hp _,
    @C106_newton _ nanArith _ _ _ _ nan_extends tetra_isHull hp _ tetra_regular_out tetra_out_corner ht 2670 1, _, T, hT⟩

end Geec
