import Verif.Props.Defined
import Verif.Props.ThinTube
/-
C22 and C106, exactly: the stations where a query with gradient raises, and the stations where a query without gradient is not a number.
-/
namespace Geec
open Arith
noncomputable section

/-- The exceptional places of the edges: for an edge from `a` to `b` that is computed (the face of the edge comes before the face of
its twin), the stations `s` as far from `a` as the edge is long and with `|a - s| + (a - s)·u` equal to the threshold: a circle around
the line of the edge beside the corner `b`. -/
def Poly.AtException (p : Poly ℝ) (s : V3 ℝ) : Prop :=
  ∃ i j e i' j', p.edgeAt i j = some e ∧ e.twin = some (i', j') ∧ i ≤ i' ∧ vlen (e.fin.sub e.start) = vlen (e.start.sub s) ∧
    vlen (e.start.sub s) + rdot (e.start.sub s) (e.fin.sub e.start) / vlen (e.fin.sub e.start) = repsilon

/-- all edges of the body are longer than the threshold -/
def Hull.LongEdges (h : Hull ℝ) : Prop :=
  ∀ t ∈ h.simplices, ∀ i j, Corner t i → Corner t j → i ≠ j → repsilon < vlen ((h.pt j).sub (h.pt i))

theorem lineIntegral_gradient_iff {cj : ℝ} {Lj : V3 ℝ} {lj : ℝ} {Rj : V3 ℝ} {rj b2 bj : ℝ} (hr : rj ≠ 0) :
    (∃ x, lineIntegralAlongEdge cj Lj lj Rj rj b2 bj true = .error x) ↔ |cj| ≤ repsilon ∧ lj = rj := by
  constructor
  · rintro ⟨x, hx⟩
    by_cases hl : lj = rj
    · refine ⟨?_, hl⟩
      by_contra hc
      rw [not_le] at hc
      unfold lineIntegralAlongEdge at hx
      simp only [bind, Except.bind, pure, Except.pure] at hx
      rw [if_pos (show (Arith.eps <. Arith.abs cj) = true from decide_eq_true hc), numbaDiv_real, if_neg] at hx
      · simp at hx
      · rintro rfl
        rw [abs_zero] at hc
        exact absurd hc (not_lt.mpr Extends.repsilon_pos.le)
    · obtain ⟨v, hv⟩ := lineIntegral_ok_gradient (cj := cj) (Lj := Lj) (Rj := Rj) (b2 := b2) (bj := bj) hr hl true
      rw [hv] at hx
      cases hx
  · rintro ⟨hc, rfl⟩
    unfold lineIntegralAlongEdge
    simp only [bind, Except.bind, pure, Except.pure]
    rw [if_neg (show ¬ (Arith.eps <. Arith.abs cj) = true from fun h => absurd (of_decide_eq_true h) (not_lt.mpr hc)), numbaDiv_real, if_neg hr]
    simp only [if_true]
    rw [numbaDiv_real, if_pos (by show |lj - lj| = 0; simp)]
    exact ⟨_, rfl⟩

theorem edgeTail_gradient_iff {e : Edge ℝ} {R : V3 ℝ} (hlen : e.length = vlen e.vector) (hr : 0 < vlen R) (hl : repsilon < e.length) (c : ℝ) :
    (∃ x, Extends.edgeTail e R (vlen R) c true = .error x) ↔ e.length = vlen R ∧ vlen R + rdot R e.vector / e.length = repsilon := by
  have e0 := Extends.repsilon_pos
  have hl0 : 0 < e.length := e0.trans hl
  have hb : ∀ x : ℝ, (Arith.two *. x) /. e.length /. Arith.two = x / e.length := by
    intro x
    show 2 * x / e.length / 2 = x / e.length
    ring
  have hneg : ∀ x : ℝ, (Arith.neg (Arith.two *. x)) /. e.length /. Arith.two = -(x / e.length) := by
    intro x
    show -(2 * x) / e.length / 2 = -(x / e.length)
    ring
  have hd : (Arith.dot R e.vector : ℝ) = rdot R e.vector := rfl
  have hadd : ∀ x y : ℝ, x +. y = x + y := fun _ _ => rfl
  have hcs : 0 ≤ vlen R + rdot R e.vector / e.length := by
    have : |rdot R e.vector / e.length| ≤ vlen R := by
      rw [abs_div, abs_of_pos hl0, div_le_iff₀ hl0, hlen]
      exact abs_rdot_le _ _
    have := (abs_le.mp this).1
    linarith
  have hmap : ∀ (r : Except PyErr (V3 ℝ × Option (M3 ℝ))), (∃ x, (do let (pqr, dpqr) ← r; return (pqr.smul c, dpqr) : Except PyErr (V3 ℝ × Option (M3 ℝ))) = .error x) ↔
      ∃ x, r = .error x := by
    intro r
    rcases r with x | ⟨v, w⟩
    · exact ⟨fun _ => ⟨x, rfl⟩, fun _ => ⟨x, rfl⟩⟩
    · exact ⟨fun ⟨x, h⟩ => (by cases h), fun ⟨x, h⟩ => (by cases h)⟩
  unfold Extends.edgeTail
  simp only [hb, hd, hadd]
  by_cases hf : |vlen R + rdot R e.vector / e.length| < repsilon
  · have hfl : ((Arith.abs (vlen R + rdot R e.vector / e.length) : ℝ) <. Arith.eps) = true := decide_eq_true hf
    simp only [hfl, if_true, hneg]
    rw [hmap, lineIntegral_gradient_iff hr.ne']
    rw [abs_of_nonneg hcs] at hf
    constructor
    · rintro ⟨h1, h2⟩
      have := (abs_le.mp h1).2
      linarith
    · rintro ⟨h1, h2⟩
      linarith
  · have hfl : ((Arith.abs (vlen R + rdot R e.vector / e.length) : ℝ) <. Arith.eps) = false := decide_eq_false hf
    simp only [hfl, Bool.false_eq_true, if_false]
    rw [hmap, lineIntegral_gradient_iff hr.ne']
    rw [abs_of_nonneg hcs] at hf ⊢
    constructor
    · rintro ⟨h1, h2⟩
      exact ⟨h2, le_antisymm h1 (not_lt.mp hf)⟩
    · rintro ⟨h1, h2⟩
      exact ⟨h2.le, h1⟩

/-- an edge longer than the threshold raises with gradient exactly at its exceptional place -/
theorem edgeIntegral_gradient_iff {e : Edge ℝ} (pr : e.Proper) {s : V3 ℝ} (h1 : e.start ≠ s) (h2 : e.fin ≠ s) (hl : repsilon < e.length) :
    (∃ x, edgeIntegral e s true = .error x) ↔ vlen (e.fin.sub e.start) = vlen (e.start.sub s) ∧
      vlen (e.start.sub s) + rdot (e.start.sub s) (e.fin.sub e.start) / vlen (e.fin.sub e.start) = repsilon := by
  have e0 := Extends.repsilon_pos
  have r1 : 0 < vlen (e.start.sub s) := vlen_pos (sub_ne_zeros (Ne.symm h1))
  have r2 : 0 < vlen (e.fin.sub s) := vlen_pos (sub_ne_zeros (Ne.symm h2))
  have hlen : e.length = vlen (e.fin.sub e.start) := by rw [pr.length, pr.vector]
  rw [Extends.edgeIntegral_tail]
  split
  · next hsw =>
    simp only [Bool.and_eq_true, r_lt, r_eq] at hsw
    obtain ⟨hlt, hcos⟩ := hsw
    have hlt : vlen (e.fin.sub s) < vlen (e.start.sub s) := hlt
    have hcos : rdot (e.start.sub s) (e.fin.sub s) = vlen (e.start.sub s) * vlen (e.fin.sub s) := by
      have : rdot (e.start.sub s) (e.fin.sub s) / (vlen (e.start.sub s) * vlen (e.fin.sub s)) = 1 := hcos
      exact (div_eq_one_iff_eq (mul_pos r1 r2).ne').mp this
    have hvv : e.fin.sub e.start = (e.fin.sub s).sub (e.start.sub s) := V3.ext' (by simp) (by simp) (by simp)
    have hq : ∀ a b : V3 ℝ, rdot (b.sub a) (b.sub a) = rdot b b - 2 * rdot a b + rdot a a := by
      intro a b
      simp only [rdot, V3.sub, r_sub]
      ring
    have hll : e.length = vlen (e.start.sub s) - vlen (e.fin.sub s) := by
      have : e.length * e.length = (vlen (e.start.sub s) - vlen (e.fin.sub s)) * (vlen (e.start.sub s) - vlen (e.fin.sub s)) := by
        rw [hlen, vlen_sq, hvv, hq, hcos, ← vlen_sq, ← vlen_sq]
        ring
      nlinarith
    have hdot : rdot (e.fin.sub s) e.vector = -(vlen (e.fin.sub s) * e.length) := by
      rw [pr.vector, hvv, rdot_sub, ← vlen_sq, rdot_comm (e.fin.sub s) (e.start.sub s), hcos, hll]
      ring
    have hz : vlen (e.fin.sub s) + rdot (e.fin.sub s) e.vector / e.length = 0 := by
      rw [hdot]
      have : e.length ≠ 0 := (e0.trans hl).ne'
      field_simp
      ring
    have := edgeTail_gradient_iff pr.length r2 hl (Arith.negOne : ℝ)
    constructor
    · intro h
      obtain ⟨-, k⟩ := this.mp h
      rw [hz] at k
      exact absurd k e0.ne
    · rintro ⟨k, -⟩
      rw [← hlen, hll] at k
      linarith
  · have := edgeTail_gradient_iff pr.length r1 hl (Arith.one : ℝ)
    rw [show (Arith.norm (e.start.sub s) : ℝ) = vlen (e.start.sub s) from rfl, this, hlen, pr.vector]

section
variable {h : Hull ℝ} {inHull : V3 ℝ → Bool} {p : Poly ℝ}

theorem long_edge (hh : h.IsHull) (hp : mkPoly h inHull = .ok p) (hl : h.LongEdges) {i j : Nat} {e : Edge ℝ} (he : p.edgeAt i j = some e) :
    repsilon < e.length := by
  obtain ⟨t, ht, ⟨a, ha, hst⟩, b, hb, hfn⟩ := edge_start_corner hh hp he
  have hpr := edge_proper hh hp he
  have hab : a ≠ b := by rintro rfl; exact hpr.ne (hst.trans hfn.symm)
  rw [hpr.length, hpr.vector, hst, hfn]
  exact hl t (List.mem_of_getElem? ht) a b ha hb hab

theorem edge_ends (hh : h.IsHull) (hp : mkPoly h inHull = .ok p) {s : V3 ℝ} (hv : ∀ t ∈ h.simplices, ∀ i, Corner t i → h.pt i ≠ s)
    {i j : Nat} {e : Edge ℝ} (he : p.edgeAt i j = some e) : e.start ≠ s ∧ e.fin ≠ s := by
  obtain ⟨t, ht, ⟨a, ha, hst⟩, b, hb, hfn⟩ := edge_start_corner hh hp he
  rw [hst, hfn]
  exact ⟨hv t (List.mem_of_getElem? ht) a ha, hv t (List.mem_of_getElem? ht) b hb⟩

/-- an edge of a face that raises makes the query raise -/
theorem onNew_raises (hh : h.IsHull) (hp : mkPoly h inHull = .ok p) {c : Call ℝ} {i j : Nat} {e : Edge ℝ} (he : p.edgeAt i j = some e) {x : PyErr}
    (hx : edgeValue p c.obs c.gradient i e = .error x) : c.onNew p = .error .zeroDivisionError := by
  have hw := wellTwinned_of_hull hh hp
  rw [onNew_closed hw]
  have hne : ∀ (k : Nat) (f : Face ℝ), p.faces[k]? = some f → f.edges ≠ [] := by
    intro k f hf
    obtain ⟨-, -, -, -, -, e0, e1, e2, hE, -⟩ := edges_of_hull hh hp hf
    rw [hE]
    simp
  have hz : ∀ (k : Nat) (f : Face ℝ) y, p.faces[k]? = some f → faceValue p c.obs c.density c.Gc c.gradient k f = .error y → y = .zeroDivisionError :=
    fun k f y hf hy => faceValue_error hw hf (hne k f hf) hy
  obtain ⟨f, hf, hj⟩ : ∃ f, p.faces[i]? = some f ∧ f.edges[j]? = some e := by
    unfold Poly.edgeAt at he
    rcases hfi : p.faces[i]? with _ | f
    · rw [hfi] at he; cases he
    · rw [hfi] at he; exact ⟨f, rfl, he⟩
  refine facesValue_raises _ _ _ _ (fun k f y hf hy => by rw [Nat.zero_add] at hy; exact hz k f y hf hy) ⟨i, f, hf, ?_⟩
  rw [Nat.zero_add]
  rcases hv : faceValue p c.obs c.density c.Gc c.gradient i f with y | y
  · rw [hz i f y hf hv]
  · exfalso
    unfold faceValue at hv
    rcases ho : omegaValue f c.obs c.gradient with z | w <;> rw [ho] at hv
    · cases hv
    · simp only at hv
      rcases hes : edgesValue p c.obs c.gradient i f.edges with z | vs
      · rw [hes] at hv; cases hv
      · have : ∀ (es : List (Edge ℝ)) vs, e ∈ es → edgesValue p c.obs c.gradient i es ≠ .ok vs := by
          intro es
          induction es with
          | nil => intro vs hm; cases hm
          | cons d es ih =>
            intro vs hm hx'
            simp only [edgesValue] at hx'
            rcases List.mem_cons.mp hm with rfl | hm
            · rw [hx] at hx'; cases hx'
            · split at hx'
              · cases hx'
              · split at hx'
                · cases hx'
                · next h3 => exact ih _ hm h3
        exact this _ _ (List.mem_of_getElem? hj) hes

/-- **C22, with gradient, exactly.**  For a body with edges longer than the threshold `eps`: `get_gravity` with gradient raises exactly
at the corners and at the exceptional places of the edges that are computed; and what it raises is `ZeroDivisionError`. -/
theorem C22_gradient_iff (hh : h.IsHull) (hp : mkPoly h inHull = .ok p) (hl : h.LongEdges) (s : V3 ℝ) (ρ Gc : ℝ) :
    ((∃ x, Call.onNew p ⟨s, ρ, Gc, true⟩ = .error x) ↔ (∃ t ∈ h.simplices, ∃ i, Corner t i ∧ h.pt i = s) ∨ p.AtException s) ∧
    (p.AtException s → Call.onNew p ⟨s, ρ, Gc, true⟩ = .error .zeroDivisionError) := by
  have hw := wellTwinned_of_hull hh hp
  have hexc : (∀ t ∈ h.simplices, ∀ i, Corner t i → h.pt i ≠ s) → p.AtException s → Call.onNew p ⟨s, ρ, Gc, true⟩ = .error .zeroDivisionError := by
    rintro hv ⟨i, j, e, i', j', he, ht, hi, k1, k2⟩
    obtain ⟨e1, e2⟩ := edge_ends hh hp hv he
    obtain ⟨x, hx⟩ := (edgeIntegral_gradient_iff (edge_proper hh hp he) e1 e2 (long_edge hh hp hl he)).mpr ⟨k1, k2⟩
    refine onNew_raises hh hp (c := ⟨s, ρ, Gc, true⟩) he (x := x) ?_
    unfold edgeValue
    rw [ht]
    simp only [not_lt.mpr hi, if_false]
    exact hx
  have hcor : (∃ t ∈ h.simplices, ∃ i, Corner t i ∧ h.pt i = s) → Call.onNew p ⟨s, ρ, Gc, true⟩ = .error .zeroDivisionError := by
    rintro ⟨t, ht, i, hi, rfl⟩
    exact C21_corner hh hp ht hi ρ Gc true
  refine ⟨⟨?_, ?_⟩, ?_⟩
  · rintro ⟨x, hx⟩
    by_contra hc
    obtain ⟨hv, hn⟩ := not_or.mp hc
    push Not at hv
    have hok : ∀ i j e i' j', p.edgeAt i j = some e → e.twin = some (i', j') → i ≤ i' → ∃ v, edgeIntegral e s true = .ok v := by
      intro i j e i' j' he ht hi
      rcases hv' : edgeIntegral e s true with y | y
      · exfalso
        obtain ⟨e1, e2⟩ := edge_ends hh hp hv he
        obtain ⟨k1, k2⟩ := (edgeIntegral_gradient_iff (edge_proper hh hp he) e1 e2 (long_edge hh hp hl he)).mp ⟨y, hv'⟩
        exact hn ⟨i, j, e, i', j', he, ht, hi, k1, k2⟩
      · exact ⟨y, rfl⟩
    rw [onNew_closed hw] at hx
    obtain ⟨v, hv'⟩ := facesValue_ok (p := p) (obs := s) (ρ := ρ) (Gc := Gc) (gr := true) p.faces 0 V3.zeros M3.zeros (by
      intro k f hk
      rw [Nat.zero_add]
      obtain ⟨w, hw'⟩ := omegaValue_ok f s true
      obtain ⟨vs, hvs, hlv⟩ := edgesValue_ok (p := p) (obs := s) (gr := true) (i := k) (es := f.edges) (by
        intro e he
        obtain ⟨j, hj⟩ := List.getElem?_of_mem he
        have hE : p.edgeAt k j = some e := by unfold Poly.edgeAt; rw [hk]; exact hj
        obtain ⟨i', j', e', ht, he', ht', -⟩ := hw k j e hE
        unfold edgeValue
        rw [ht]
        simp only [he']
        split
        · next hlt =>
          obtain ⟨v, hv⟩ := hok i' j' e' k j he' ht' hlt.le
          exact ⟨pairNeg v, by rw [hv]; rfl⟩
        · next hlt => exact hok k j e i' j' hE ht (not_lt.mp hlt))
      obtain ⟨-, -, -, -, -, e0, e1, e2, hE, -⟩ := edges_of_hull hh hp hk
      rw [hE] at hlv
      unfold faceValue
      rw [hw', hvs]
      rcases vs with _ | ⟨v, vs⟩
      · cases hlv
      · exact ⟨_, rfl⟩)
    exact absurd (hx.symm.trans hv') (by simp)
  · rintro (h1 | h1)
    · exact ⟨_, hcor h1⟩
    · by_cases hv : ∃ t ∈ h.simplices, ∃ i, Corner t i ∧ h.pt i = s
      · exact ⟨_, hcor hv⟩
      · push Not at hv
        exact ⟨_, hexc hv h1⟩
  · intro h1
    by_cases hv : ∃ t ∈ h.simplices, ∃ i, Corner t i ∧ h.pt i = s
    · exact hcor hv
    · push Not at hv
      exact hexc hv h1

/-- **C106, exactly.**  For a body with edges longer than the threshold and a station that is no corner: the answer, in the arithmetic
in which whatever is undefined is NaN and stays it, is that of the real numbers, except without gradient at the exceptional places of
the edges that are computed.  There no component of the attraction is a number.  (With gradient, these are the places where both
raise, see `C22_gradient_iff`.) -/
theorem C106_exact (hh : h.IsHull) (hp : mkPoly h inHull = .ok p) (hl : h.LongEdges) (c : Call ℝ)
    (hs : ∀ t ∈ h.simplices, ∀ i, Corner t i → h.pt i ≠ c.obs) :
    (@Call.onNew _ nanArith (p.map some) (c.map some) = (c.onNew p).map (answerMap some) ↔ ¬ (c.gradient = false ∧ p.AtException c.obs)) ∧
    (c.gradient = false → p.AtException c.obs →
      ∃ T, @Call.onNew _ nanArith (p.map some) (c.map some) = .ok (⟨none, none, none⟩, T)) := by
  have hbad : c.gradient = false → p.AtException c.obs →
      ∃ T, @Call.onNew _ nanArith (p.map some) (c.map some) = .ok (⟨none, none, none⟩, T) := by
    rintro hg ⟨i, j, e, i', j', he, ht, hi, k1, k2⟩
    obtain ⟨s, ρ, Gc, gr⟩ := c
    simp only at hg hs k1 k2
    subst hg
    let _ := nanArith
    obtain ⟨⟨G, T⟩, hGT⟩ := C106_returns nan_extends hh hp hs (some ρ) (some Gc)
    refine ⟨T, ?_⟩
    have hpr := edge_proper hh hp he
    have hlong := long_edge hh hp hl he
    rw [hpr.length, hpr.vector, k1] at hlong
    have hedge := untame_edge nan_extends hpr (s := s) (edge_ends hh hp hs he).2 hlong k1 k2
    have hlog : Arith.log (some (0 : ℝ)) = none := by
      show (if (0 : ℝ) ≤ 0 then none else _) = none
      rw [if_pos le_rfl]
    obtain ⟨g1, g2, g3⟩ := nan_face nan_nanLike (Extends.wellTwinned (wellTwinned_of_hull hh hp)) (e := e.map some)
      (by rw [Extends.edgeAt, he]; rfl) (show (e.map some).twin = some (i', j') from ht) hi (c := ⟨s.map some, some ρ, some Gc, false⟩) hedge (by
        rw [hlog]
        exact ⟨rfl, rfl, rfl⟩) hGT
    show Call.onNew (p.map some) ⟨s.map some, some ρ, some Gc, false⟩ = _
    rw [hGT]
    obtain ⟨gx, gy, gz⟩ := G
    simp only at g1 g2 g3
    rw [g1, g2, g3]
  refine ⟨⟨?_, ?_⟩, hbad⟩
  · rintro heq ⟨hg, hx⟩
    obtain ⟨T, hT⟩ := hbad hg hx
    rw [hT] at heq
    rcases hv : c.onNew p with x | ⟨g, t⟩
    · rw [hv] at heq; cases heq
    · rw [hv] at heq
      have := congrArg Prod.fst (Except.ok.inj heq)
      exact absurd (congrArg V3.x this) (by simp [answerMap, V3.map])
  · intro hn
    let _ := nanArith
    refine Extends.onNew nan_extends hh hp c hs fun hg => ?_
    intro i j e i' j' he ht hi
    have hpr := edge_proper hh hp he
    have hlong := long_edge hh hp hl he
    rw [hpr.length, hpr.vector] at hlong
    refine ⟨fun k1 => ⟨k1 ▸ hlong, fun k2 => hn ⟨hg, i, j, e, i', j', he, ht, hi, k1, k2⟩⟩, fun k1 => k1 ▸ hlong⟩

end

/-! ### the hypotheses are met -/

theorem tetra_longEdges : tetra.LongEdges := by
  intro t ht i j hi hj hij
  have h1 : i < 4 := tetra_isHull.cornerIndex t ht i hi
  have h2 : j < 4 := tetra_isHull.cornerIndex t ht j hj
  have e1 : repsilon < 1 := by unfold repsilon; norm_num
  refine e1.trans_le ?_
  unfold vlen
  apply Real.le_sqrt_of_sq_le
  interval_cases i <;> interval_cases j <;> first | exact absurd rfl hij | (simp [tetra_pt0, tetra_pt1, tetra_pt2, tetra_pt3, rdot]; try norm_num)

/-- the exceptional place of the unit tetrahedron: the edge from (0,0,0) to (0,1,0) of the first face -/
theorem untamePlace_atException {inHull : V3 ℝ → Bool} {p : Poly ℝ} (hp : mkPoly tetra inHull = .ok p) : p.AtException untamePlace := by
  have e0 : (0 : ℝ) < repsilon := by unfold repsilon; positivity
  have e1 : repsilon < 1 := by unfold repsilon; norm_num
  have hlen : 0 < p.faces.length := by rw [(C24_counter_clockwise tetra_isHull hp).1]; decide
  have hf0 : p.faces[0]? = some p.faces[0] := List.getElem?_eq_getElem hlen
  obtain ⟨a, b, c, x0, x1, x2, hE, hor, h0, h1, h2⟩ := orient0 hp hf0
  have hex : ∃ j e, p.edgeAt 0 j = some e ∧ e.start = tetra.pt 0 ∧ e.fin = tetra.pt 2 := by
    unfold Poly.edgeAt
    rw [hf0]
    simp only [Option.bind_some, hE]
    rcases hor with ⟨rfl, rfl, rfl⟩ | ⟨rfl, rfl, rfl⟩ | ⟨rfl, rfl, rfl⟩
    · exact ⟨0, x0, rfl, h0⟩
    · exact ⟨2, x2, rfl, h2⟩
    · exact ⟨1, x1, rfl, h1⟩
  obtain ⟨j, e, hj, hs, hfin⟩ := hex
  obtain ⟨i', j', -, t1, -, -, -⟩ := wellTwinned_of_hull tetra_isHull hp 0 j e hj
  have hsq : 0 ≤ 2 * repsilon - repsilon ^ 2 := by nlinarith
  have hR : (e.start.sub untamePlace) = ⟨Real.sqrt (2 * repsilon - repsilon ^ 2), -(1 - repsilon), 0⟩ := by
    rw [hs, tetra_pt0]; refine V3.ext' ?_ ?_ ?_ <;> simp [untamePlace]
  have hL : (e.fin.sub e.start) = ⟨0, 1, 0⟩ := by
    rw [hs, hfin, tetra_pt0, tetra_pt2]; refine V3.ext' ?_ ?_ ?_ <;> simp
  have vR : vlen (e.start.sub untamePlace) = 1 := by
    unfold vlen
    rw [hR, Real.sqrt_eq_one]
    simp only [rdot]
    rw [Real.mul_self_sqrt hsq]
    ring
  have vL : vlen (e.fin.sub e.start) = 1 := by
    unfold vlen
    rw [hL, Real.sqrt_eq_one]
    simp [rdot]
  refine ⟨0, j, e, i', j', hj, t1, Nat.zero_le _, by rw [vR, vL], ?_⟩
  rw [vR, vL, hR, hL]
  simp [rdot]

/-- two hundredths of a micron from a corner of the unit tetrahedron the query with gradient raises, and without gradient it is NaN -/
example : ∃ p, mkPoly tetra (fun _ => true) = .ok p ∧ Call.onNew p ⟨untamePlace, 1, 1, true⟩ = .error .zeroDivisionError ∧
    ∃ T, @Call.onNew _ nanArith (p.map some) ((Call.mk untamePlace 1 1 false).map some) = .ok (⟨none, none, none⟩, T) := by
  obtain ⟨p, hp⟩ := hull_mkPoly_ok tetra_isHull (fun _ => true)
  exact ⟨p, hp, (C22_gradient_iff tetra_isHull hp tetra_longEdges untamePlace 1 1).2 (untamePlace_atException hp),
    (C106_exact tetra_isHull hp tetra_longEdges ⟨untamePlace, 1, 1, false⟩ untamePlace_corner).2 rfl (untamePlace_atException hp)⟩

end
end Geec
