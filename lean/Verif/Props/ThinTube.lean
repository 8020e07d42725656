import Verif.Props.TensorLaws
/-
Stations in the thin tube about the prolongation of an edge beyond its end: the edge integral has the wrong sign.
-/
namespace Geec
open Arith MeasureTheory
noncomputable section

theorem vlen_strict {R L : V3 ℝ} (h : cross R L ≠ V3.zeros) : vlen R < vlen (R.sub L) + vlen L := by
  have h1 : cross (R.sub L) L ≠ V3.zeros := by
    have : cross (R.sub L) L = cross R L := by refine V3.ext' ?_ ?_ ?_ <;> simp <;> ring
    rw [this]; exact h
  have h2 := (abs_lt.mp (cs_strict h1)).2
  have e1 := vlen_sq (R.sub L)
  have e2 := vlen_sq L
  have e3 := vlen_sq R
  have e4 : rdot R R = rdot (R.sub L) (R.sub L) + 2 * rdot (R.sub L) L + rdot L L := by simp [rdot]; ring
  have p1 := vlen_nonneg (R.sub L)
  have p2 := vlen_nonneg L
  have p3 := vlen_nonneg R
  nlinarith

/-- the code when it turns the edge without exchanging its ends -/
theorem edgeIntegral_turned {e : Edge ℝ} (he : e.Proper) {obs : V3 ℝ} (gr : Bool) (hx : cross (e.start.sub obs) e.vector ≠ V3.zeros)
    (hc : vlen (e.start.sub obs) + rdot (e.start.sub obs) e.vector / vlen e.vector < repsilon) (hr : repsilon < vlen (e.start.sub obs)) :
    ∃ d, edgeIntegral e obs gr = .ok (V3.smul (-(Real.log ((vlen ((e.start.sub obs).sub e.vector) + vlen e.vector - rdot (e.start.sub obs) e.vector / vlen e.vector) /
      (vlen (e.start.sub obs) - rdot (e.start.sub obs) e.vector / vlen e.vector)) / vlen e.vector)) e.vector, d) := by
  have hL : e.vector ≠ V3.zeros := by rw [he.vector]; exact sub_ne_zeros he.ne
  have hl := vlen_pos hL
  have heps : (0 : ℝ) < repsilon := by unfold repsilon; positivity
  have hfin : e.fin.sub obs = (e.start.sub obs).add e.vector := by
    rw [he.vector]; refine V3.ext' ?_ ?_ ?_ <;> simp
  have hx' : cross (e.start.sub obs) (e.fin.sub obs) ≠ V3.zeros := by
    have : cross (e.start.sub obs) (e.fin.sub obs) = cross (e.start.sub obs) e.vector := by
      rw [hfin]; refine V3.ext' ?_ ?_ ?_ <;> simp <;> ring
    rw [this]; exact hx
  have hs := (abs_lt.mp (cs_strict hx')).2.ne
  have hswap : ((norm (e.fin.sub obs) <. norm (e.start.sub obs)) && ((dot (e.start.sub obs) (e.fin.sub obs) /. (norm (e.start.sub obs) *. norm (e.fin.sub obs))) ==. one)) = false := by
    rw [Bool.eq_false_iff, ne_eq, Bool.and_eq_true, r_lt, r_eq]
    rintro ⟨h1, h2⟩
    apply hs
    simp only [r_div, r_dot, r_mul, r_norm, r_one] at h2
    have : Real.sqrt (rdot (e.start.sub obs) (e.start.sub obs)) * Real.sqrt (rdot (e.fin.sub obs) (e.fin.sub obs)) ≠ 0 := by
      intro h0; rw [h0, div_zero] at h2; exact zero_ne_one h2
    exact (div_eq_one_iff_eq this).mp h2
  have hb2 : (2 * rdot (e.start.sub obs) e.vector) / e.length / 2 = rdot (e.start.sub obs) e.vector / vlen e.vector := by
    rw [he.length]; ring
  have hpos : 0 < vlen (e.start.sub obs) + rdot (e.start.sub obs) e.vector / vlen e.vector := by
    have h1 := (abs_lt.mp (cs_strict hx)).1
    have : vlen (e.start.sub obs) + rdot (e.start.sub obs) e.vector / vlen e.vector =
        (vlen (e.start.sub obs) * vlen e.vector + rdot (e.start.sub obs) e.vector) / vlen e.vector := by field_simp
    rw [this]
    apply div_pos _ hl
    linarith
  have hflip : (Arith.abs (norm (e.start.sub obs) +. two *. dot (e.start.sub obs) e.vector /. e.length /. two) <. (eps : ℝ)) = true := by
    rw [r_lt]
    simp only [r_abs, r_add, r_norm, r_div, r_mul, r_two, r_dot, r_eps, hb2]
    show |vlen _ + _| < _
    rw [abs_of_pos hpos]
    exact hc
  unfold edgeIntegral
  simp only [hswap, hflip, Bool.false_eq_true, if_false, if_true]
  have hLn : e.vector.neg ≠ V3.zeros := neg_ne' hL
  have hdiv : rdot (e.start.sub obs) e.vector.neg / vlen e.vector.neg = -(rdot (e.start.sub obs) e.vector / vlen e.vector) := by
    rw [vlen_neg, rdot_neg, neg_div]
  have hc' : repsilon < vlen (e.start.sub obs) + rdot (e.start.sub obs) e.vector.neg / vlen e.vector.neg := by
    rw [hdiv]; linarith
  have hu : 0 < vlen ((e.start.sub obs).add e.vector.neg) + vlen e.vector.neg + rdot (e.start.sub obs) e.vector.neg / vlen e.vector.neg := by
    have h1 := vlen_nonneg ((e.start.sub obs).add e.vector.neg)
    rw [hdiv, vlen_neg]; linarith
  have hlin := lineIntegral_general hLn hc' hu gr
  have hargs : lineIntegralAlongEdge (norm (e.start.sub obs) +. Arith.neg (two *. dot (e.start.sub obs) e.vector) /. e.length /. two) e.vector.neg e.length
      (e.start.sub obs) (norm (e.start.sub obs)) (Arith.neg (two *. dot (e.start.sub obs) e.vector) /. e.length /. two) (Arith.neg (two *. dot (e.start.sub obs) e.vector)) gr =
      lineIntegralAlongEdge (vlen (e.start.sub obs) + rdot (e.start.sub obs) e.vector.neg / vlen e.vector.neg) e.vector.neg (vlen e.vector.neg)
      (e.start.sub obs) (vlen (e.start.sub obs)) (rdot (e.start.sub obs) e.vector.neg / vlen e.vector.neg) (2 * rdot (e.start.sub obs) e.vector.neg) gr := by
    have h1 : Arith.neg (two *. dot (e.start.sub obs) e.vector) = 2 * rdot (e.start.sub obs) e.vector.neg := by
      simp only [r_neg, r_mul, r_two, r_dot, rdot_neg]; ring
    have h2 : Arith.neg (two *. dot (e.start.sub obs) e.vector) /. e.length /. two = rdot (e.start.sub obs) e.vector.neg / vlen e.vector.neg := by
      rw [h1, vlen_neg, ← he.length]; simp only [r_div, r_two]; ring
    rw [h2, h1, vlen_neg, ← he.length]
    rfl
  rw [hargs, hlin]
  have hadd : (e.start.sub obs).add e.vector.neg = (e.start.sub obs).sub e.vector := by refine V3.ext' ?_ ?_ ?_ <;> simp <;> ring
  refine ok_pair (a := V3.smul 1 _) ?_
  rw [hdiv, hadd, vlen_neg, ← sub_eq_add_neg, ← sub_eq_add_neg]
  refine V3.ext' ?_ ?_ ?_ <;> simp <;> ring

/-- **The excluded region of C13 cannot be dropped.**  Off the line of the edge, but so close to its prolongation beyond the end
that the code treats the station as in line, the value computed for the edge is a *negative* multiple of the edge vector, while
the line integral is a positive one. -/
theorem C13_thin_tube {e : Edge ℝ} (he : e.Proper) {obs : V3 ℝ} (gr : Bool) (hx : cross (e.start.sub obs) e.vector ≠ V3.zeros)
    (hc : vlen (e.start.sub obs) + rdot (e.start.sub obs) e.vector / vlen e.vector < repsilon) (hr : repsilon < vlen (e.start.sub obs)) :
    ∃ x d, x < 0 ∧ edgeIntegral e obs gr = .ok (V3.smul x e.vector, d) ∧ 0 < lineJ (e.start.sub obs) e.vector := by
  obtain ⟨d, hd⟩ := edgeIntegral_turned he gr hx hc hr
  have hL : e.vector ≠ V3.zeros := by rw [he.vector]; exact sub_ne_zeros he.ne
  have hl := vlen_pos hL
  have heps : (0 : ℝ) < repsilon := by unfold repsilon; positivity
  refine ⟨_, d, ?_, hd, ?_⟩
  · rw [neg_lt_zero]
    apply div_pos _ hl
    apply Real.log_pos
    rw [lt_div_iff₀ (by linarith)]
    have := vlen_strict hx
    linarith
  · rw [lineJ_off hx]
    apply div_pos _ hl
    apply Real.log_pos
    have hpos : 0 < vlen (e.start.sub obs) + rdot (e.start.sub obs) e.vector / vlen e.vector := by
      have h1 := (abs_lt.mp (cs_strict hx)).1
      have : vlen (e.start.sub obs) + rdot (e.start.sub obs) e.vector / vlen e.vector =
          (vlen (e.start.sub obs) * vlen e.vector + rdot (e.start.sub obs) e.vector) / vlen e.vector := by field_simp
      rw [this]
      apply div_pos _ hl
      linarith
    rw [lt_div_iff₀ hpos]
    have h2 : cross ((e.start.sub obs).add e.vector) e.vector ≠ V3.zeros := by
      have : cross ((e.start.sub obs).add e.vector) e.vector = cross (e.start.sub obs) e.vector := by refine V3.ext' ?_ ?_ ?_ <;> simp <;> ring
      rw [this]; exact hx
    have h3 : vlen (e.start.sub obs) < vlen ((e.start.sub obs).add e.vector) + vlen e.vector := by
      have hneg : cross (e.start.sub obs) e.vector.neg ≠ V3.zeros := by
        intro h0
        apply hx
        have a1 := congrArg V3.x h0
        have a2 := congrArg V3.y h0
        have a3 := congrArg V3.z h0
        simp at a1 a2 a3
        refine V3.ext' ?_ ?_ ?_ <;> simp <;> linarith
      have := vlen_strict hneg
      rw [vlen_neg] at this
      have e1 : (e.start.sub obs).sub e.vector.neg = (e.start.sub obs).add e.vector := by refine V3.ext' ?_ ?_ ?_ <;> simp
      rw [e1] at this
      exact this
    linarith

/-! ### the query returns with gradient too -/

theorem lineIntegral_ok_gradient {cj : ℝ} {Lj : V3 ℝ} {lj : ℝ} {Rj : V3 ℝ} {rj b2 bj : ℝ} (hr : rj ≠ 0) (hl : lj ≠ rj) (gr : Bool) :
    ∃ v, lineIntegralAlongEdge cj Lj lj Rj rj b2 bj gr = .ok v := by
  unfold lineIntegralAlongEdge
  simp only [bind, Except.bind, pure, Except.pure]
  split
  · next hc =>
    rw [numbaDiv_real, if_neg]
    · cases gr <;> exact ⟨_, rfl⟩
    · intro h0
      rw [r_lt, h0] at hc
      simp only [r_eps, r_abs, abs_zero] at hc
      exact absurd hc (not_lt.mpr (by unfold repsilon; positivity))
  · rw [numbaDiv_real, if_neg hr]
    cases gr
    · exact ⟨_, rfl⟩
    · simp only [if_true]
      rw [numbaDiv_real, if_neg]
      · exact ⟨_, rfl⟩
      · simp only [r_abs, r_sub, abs_eq_zero]
        exact sub_ne_zero.mpr hl

theorem edgeIntegral_ok_gradient {e : Edge ℝ} {obs : V3 ℝ} (hs : e.start ≠ obs) (h1 : e.length ≠ vlen (e.start.sub obs))
    (h2 : e.length ≠ vlen (e.fin.sub obs)) (gr : Bool) : ∃ v, edgeIntegral e obs gr = .ok v := by
  have hr1 : (0 : ℝ) < vlen (e.start.sub obs) := vlen_pos (sub_ne_zeros (Ne.symm hs))
  unfold edgeIntegral
  simp only [bind, Except.bind, pure, Except.pure]
  set swap := (norm (e.fin.sub obs) <. norm (e.start.sub obs)) && ((dot (e.start.sub obs) (e.fin.sub obs) /. (norm (e.start.sub obs) *. norm (e.fin.sub obs))) ==. one) with hswap
  have hr : (if swap = true then norm (e.fin.sub obs) else norm (e.start.sub obs)) ≠ (0 : ℝ) := by
    split
    · next h =>
      rw [hswap, Bool.and_eq_true] at h
      have h2 := h.2
      rw [r_eq] at h2
      intro h0
      simp only [r_norm, r_dot, r_div, r_mul, r_one] at h0 h2
      rw [h0] at h2
      simp at h2
    · exact hr1.ne'
  have hl : e.length ≠ (if swap = true then norm (e.fin.sub obs) else norm (e.start.sub obs)) := by
    split
    · exact h2
    · exact h1
  split
  · next h =>
    obtain ⟨v, hv⟩ := lineIntegral_ok_gradient (cj := _) (Lj := _) (lj := _) (Rj := _) (b2 := _) (bj := _) hr hl gr
    exact absurd (hv.symm.trans h) (by simp)
  · exact ⟨_, rfl⟩

/-- **C22, with gradient.**  A query returns at every station that is not a corner and whose distance from a corner is not the
length of an edge at that corner. -/
theorem C22_gradient {h : Hull ℝ} (hh : h.IsHull) {inHull : V3 ℝ → Bool} {p : Poly ℝ} (hp : mkPoly h inHull = .ok p) {obs : V3 ℝ}
    (hv : ∀ t ∈ h.simplices, ∀ i, Corner t i → h.pt i ≠ obs)
    (hd : ∀ t ∈ h.simplices, ∀ i j, Corner t i → Corner t j → i ≠ j → vlen ((h.pt j).sub (h.pt i)) ≠ vlen ((h.pt i).sub obs)) (ρ Gc : ℝ) (gr : Bool) :
    ∃ G T, Call.onNew p ⟨obs, ρ, Gc, gr⟩ = .ok (G, T) := by
  have hw := wellTwinned_of_hull hh hp
  rw [onNew_closed hw]
  have hok : ∀ i j e, p.edgeAt i j = some e → ∃ v, edgeIntegral e obs gr = .ok v := by
    intro i j e he
    obtain ⟨t, ht, ⟨a, ha, hst⟩, b, hb, hfn⟩ := edge_start_corner hh hp he
    have hpr := edge_proper hh hp he
    have hab : a ≠ b := by rintro rfl; exact hpr.ne (hst.trans hfn.symm)
    have hm := List.mem_of_getElem? ht
    apply edgeIntegral_ok_gradient
    · rw [hst]
      exact hv t hm a ha
    · rw [hpr.length, hpr.vector, hst, hfn]
      exact hd t hm a b ha hb hab
    · have := hd t hm b a hb ha hab.symm
      rw [hpr.length, hpr.vector, hst, hfn]
      have e1 : vlen ((h.pt b).sub (h.pt a)) = vlen ((h.pt a).sub (h.pt b)) := by
        rw [← vlen_neg]; congr 1; refine V3.ext' ?_ ?_ ?_ <;> simp
      rw [e1]; exact this
  obtain ⟨⟨G, T⟩, hGT⟩ := facesValue_ok (p := p) (obs := obs) (ρ := ρ) (Gc := Gc) (gr := gr) p.faces 0 V3.zeros M3.zeros (by
    intro k f hk
    rw [Nat.zero_add]
    obtain ⟨w, hw'⟩ := omegaValue_ok f obs gr
    obtain ⟨vs, hvs, hl⟩ := edgesValue_ok (p := p) (obs := obs) (gr := gr) (i := k) (es := f.edges) (by
      intro e he
      obtain ⟨j, hj⟩ := List.getElem?_of_mem he
      have hE : p.edgeAt k j = some e := by unfold Poly.edgeAt; rw [hk]; exact hj
      obtain ⟨i', j', e', ht, he', -, -⟩ := hw k j e hE
      unfold edgeValue
      rw [ht]
      simp only [he']
      split
      · obtain ⟨v, hv⟩ := hok i' j' e' he'
        exact ⟨pairNeg v, by rw [hv]; rfl⟩
      · exact hok k j e hE)
    obtain ⟨-, -, -, -, -, e0, e1, e2, hE, -⟩ := edges_of_hull hh hp hk
    rw [hE] at hl
    unfold faceValue
    rw [hw', hvs]
    rcases vs with _ | ⟨v, vs⟩
    · cases hl
    · exact ⟨_, rfl⟩)
  exact ⟨G, T, hGT⟩

/-! ### the effect on the tensor -/

/-- the station: two length units in front of a corner of the unit tetrahedron, a billionth of a unit beside the line of an edge -/
def thinStation : V3 ℝ := ⟨-2, 1 / 1000000000, 0⟩

section
variable {inHull : V3 ℝ → Bool} {p : Poly ℝ}

/-- the normal of a face in terms of the corners of its triangle -/
theorem face_plane {h : Hull ℝ} (hh : h.IsHull) (hp : mkPoly h inHull = .ok p) {k : Nat} {f : Face ℝ} (hf : p.faces[k]? = some f)
    {t : Nat × Nat × Nat} (ht : h.simplices[k]? = some t) : rdot f.un f.un = 1 ∧ (∀ i, Corner t i → rdot f.un (h.pt i) = rdot f.un f.pa) ∧
      (∀ i, i < h.points.length → rdot f.un (h.pt i) ≤ rdot f.un f.pa) := by
  obtain ⟨t', ht', hpts, hperm, hn, h1, h2⟩ := face_facts hh hp hf
  rw [ht] at ht'
  cases ht'
  refine ⟨hn.unit, ?_, ?_⟩
  · intro i hi
    have hm : h.pt i ∈ [f.pa, f.pb, f.pc] := hperm.mem_iff.mpr (by
      rcases hi with rfl | rfl | rfl <;> simp)
    have o1 := hn.ortho1
    have o2 := hn.ortho2
    rw [rdot_sub] at o1 o2
    simp only [List.mem_cons, List.not_mem_nil, or_false] at hm
    rcases hm with e | e | e <;> rw [e] <;> linarith
  · intro i hi
    have := h1 _ (Hull.mem_body (Hull.pt_mem hi))
    rwa [toP_toV] at this

theorem tetra_un0 (hp : mkPoly tetra inHull = .ok p) {f : Face ℝ} (hf : p.faces[0]? = some f) : f.un = ⟨0, 0, -1⟩ ∧ rdot f.un f.pa = 0 := by
  obtain ⟨h1, h2, h3⟩ := face_plane tetra_isHull hp hf (t := (0, 1, 2)) rfl
  have a0 := h2 0 (.inl rfl)
  have a1 := h2 1 (.inr (.inl rfl))
  have a2 := h2 2 (.inr (.inr rfl))
  have a3 := h3 3 (by decide)
  rw [tetra_pt0] at a0
  rw [tetra_pt1] at a1
  rw [tetra_pt2] at a2
  rw [tetra_pt3] at a3
  simp only [rdot, mul_zero, mul_one, add_zero, zero_add] at a0 a1 a2 a3 h1
  have ex : f.un.x = 0 := by linarith
  have ey : f.un.y = 0 := by linarith
  have ez : f.un.z = -1 := by
    rw [ex, ey] at h1
    have : (f.un.z + 1) * (f.un.z - 1) = 0 := by linarith
    rcases mul_eq_zero.mp this with h | h
    · linarith
    · linarith
  exact ⟨V3.ext' ex ey ez, by simp only [rdot]; linarith⟩

theorem tetra_un1 (hp : mkPoly tetra inHull = .ok p) {f : Face ℝ} (hf : p.faces[1]? = some f) : f.un = ⟨0, -1, 0⟩ ∧ rdot f.un f.pa = 0 := by
  obtain ⟨h1, h2, h3⟩ := face_plane tetra_isHull hp hf (t := (0, 1, 3)) rfl
  have a0 := h2 0 (.inl rfl)
  have a1 := h2 1 (.inr (.inl rfl))
  have a2 := h2 3 (.inr (.inr rfl))
  have a3 := h3 2 (by decide)
  rw [tetra_pt0] at a0
  rw [tetra_pt1] at a1
  rw [tetra_pt3] at a2
  rw [tetra_pt2] at a3
  simp only [rdot, mul_zero, mul_one, add_zero, zero_add] at a0 a1 a2 a3 h1
  have ex : f.un.x = 0 := by linarith
  have ey : f.un.z = 0 := by linarith
  have ez : f.un.y = -1 := by
    rw [ex, ey] at h1
    have : (f.un.y + 1) * (f.un.y - 1) = 0 := by linarith
    rcases mul_eq_zero.mp this with h | h
    · linarith
    · linarith
  exact ⟨V3.ext' ex ez ey, by simp only [rdot]; linarith⟩

theorem tetra_un2 (hp : mkPoly tetra inHull = .ok p) {f : Face ℝ} (hf : p.faces[2]? = some f) : f.un = ⟨-1, 0, 0⟩ ∧ rdot f.un f.pa = 0 := by
  obtain ⟨h1, h2, h3⟩ := face_plane tetra_isHull hp hf (t := (0, 2, 3)) rfl
  have a0 := h2 0 (.inl rfl)
  have a1 := h2 2 (.inr (.inl rfl))
  have a2 := h2 3 (.inr (.inr rfl))
  have a3 := h3 1 (by decide)
  rw [tetra_pt0] at a0
  rw [tetra_pt2] at a1
  rw [tetra_pt3] at a2
  rw [tetra_pt1] at a3
  simp only [rdot, mul_zero, mul_one, add_zero, zero_add] at a0 a1 a2 a3 h1
  have ex : f.un.y = 0 := by linarith
  have ey : f.un.z = 0 := by linarith
  have ez : f.un.x = -1 := by
    rw [ex, ey] at h1
    have : (f.un.x + 1) * (f.un.x - 1) = 0 := by linarith
    rcases mul_eq_zero.mp this with h | h
    · linarith
    · linarith
  exact ⟨V3.ext' ez ex ey, by simp only [rdot]; linarith⟩

theorem tetra_un3 (hp : mkPoly tetra inHull = .ok p) {f : Face ℝ} (hf : p.faces[3]? = some f) :
    ∃ u : ℝ, f.un = ⟨u, u, u⟩ ∧ 1 / 2 ≤ u ∧ rdot f.un f.pa = u := by
  obtain ⟨h1, h2, h3⟩ := face_plane tetra_isHull hp hf (t := (1, 2, 3)) rfl
  have a0 := h2 1 (.inl rfl)
  have a1 := h2 2 (.inr (.inl rfl))
  have a2 := h2 3 (.inr (.inr rfl))
  have a3 := h3 0 (by decide)
  rw [tetra_pt1] at a0
  rw [tetra_pt2] at a1
  rw [tetra_pt3] at a2
  rw [tetra_pt0] at a3
  simp only [rdot, mul_zero, mul_one, add_zero, zero_add] at a0 a1 a2 a3 h1
  have ey : f.un.y = f.un.x := by linarith
  have ez : f.un.z = f.un.x := by linarith
  rw [ey, ez] at h1
  refine ⟨f.un.x, V3.ext' rfl ey ez, ?_, by simp only [rdot]; linarith⟩
  nlinarith

/-- the station is clear of the other sides -/
theorem thin_clear (a b : Nat) (ha : a < 4) (hb : b < 4) (hne : a ≠ b) (h01 : ¬ (a = 0 ∧ b = 1)) (h10 : ¬ (a = 1 ∧ b = 0)) :
    ClearOf (tetra.pt a) (tetra.pt b) thinStation := by
  unfold thinStation
  apply clearOf_bounds <;> interval_cases a <;> interval_cases b <;> first | exact absurd rfl hne | exact absurd ⟨rfl, rfl⟩ h01 | exact absurd ⟨rfl, rfl⟩ h10 | skip
  all_goals simp only [rdot, cross_x, cross_y, cross_z, sub_x, sub_y, sub_z, tetra_pt0, tetra_pt1, tetra_pt2, tetra_pt3]; norm_num

theorem thin_dist : vlen ((tetra.pt 1).sub thinStation) < 3 + repsilon ∧ 3 ≤ vlen ((tetra.pt 1).sub thinStation) := by
  have heps : repsilon = 1 / 4503599627370496 := by unfold repsilon; norm_num
  unfold vlen thinStation
  rw [tetra_pt1, heps]
  constructor
  · rw [Real.sqrt_lt' (by norm_num)]; simp [rdot]; norm_num
  · apply Real.le_sqrt_of_sq_le; simp [rdot]; norm_num

theorem thin_dir : (tetra.pt 0).sub (tetra.pt 1) = ⟨-1, 0, 0⟩ ∧ vlen (⟨-1, 0, 0⟩ : V3 ℝ) = 1 ∧ rdot ((tetra.pt 1).sub thinStation) ⟨-1, 0, 0⟩ = -3 := by
  refine ⟨?_, ?_, ?_⟩
  · rw [tetra_pt0, tetra_pt1]; refine V3.ext' ?_ ?_ ?_ <;> simp
  · unfold vlen; simp [rdot]
  · rw [tetra_pt1]; simp [rdot, thinStation]; norm_num

/-- the value of the edge next to whose prolongation the station is -/
theorem thin_edge {e : Edge ℝ} (he : e.Proper) (h1 : e.start = tetra.pt 1) (h2 : e.fin = tetra.pt 0) :
    ∃ x d, x ≤ -(1 / 5) ∧ edgeIntegral e thinStation true = .ok (V3.smul x (e.fin.sub e.start), d) ∧ 0 < lineJ (e.start.sub thinStation) (e.fin.sub e.start) := by
  obtain ⟨d1, d2⟩ := thin_dist
  obtain ⟨k1, k2, k3⟩ := thin_dir
  have hv : e.vector = ⟨-1, 0, 0⟩ := by rw [he.vector, h1, h2, k1]
  have heps : repsilon = 1 / 4503599627370496 := by unfold repsilon; norm_num
  have hx : cross (e.start.sub thinStation) e.vector ≠ V3.zeros := by
    intro h0
    have := congrArg V3.z h0
    rw [hv, h1, tetra_pt1] at this
    simp [thinStation] at this
  have hc : vlen (e.start.sub thinStation) + rdot (e.start.sub thinStation) e.vector / vlen e.vector < repsilon := by
    rw [hv, h1, k2, k3]; linarith
  have hr : repsilon < vlen (e.start.sub thinStation) := by rw [h1, heps]; linarith
  obtain ⟨d, hd⟩ := edgeIntegral_turned he true hx hc hr
  obtain ⟨-, -, -, -, hJ⟩ := C13_thin_tube he true hx hc hr
  rw [← he.vector]
  refine ⟨_, d, ?_, hd, hJ⟩
  rw [hv, k2, div_one, neg_le_neg_iff, h1, k3]
  have e4 : 4 ≤ vlen (((tetra.pt 1).sub thinStation).sub ⟨-1, 0, 0⟩) := by
    unfold vlen thinStation
    rw [tetra_pt1]
    apply Real.le_sqrt_of_sq_le; simp [rdot]; norm_num
  have hden : 0 < vlen ((tetra.pt 1).sub thinStation) - -3 / 1 := by linarith
  have hnum : 0 < vlen (((tetra.pt 1).sub thinStation).sub ⟨-1, 0, 0⟩) + 1 - -3 / 1 := by linarith
  have hl := Real.one_sub_inv_le_log_of_pos (div_pos hnum hden)
  refine le_trans ?_ hl
  rw [inv_div, le_sub_comm, div_le_iff₀ hnum]
  rw [heps] at d1
  linarith

/-- the value of the face in whose plane the station is -/
theorem thin_face0 (hp : mkPoly tetra inHull = .ok p) {f : Face ℝ} (hf : p.faces[0]? = some f) (ρ Gc : ℝ) {g : V3 ℝ × M3 ℝ}
    (hg : faceValue p thinStation ρ Gc true 0 f = .ok g) :
    ∃ δ, 1 / 5 ≤ δ ∧ g.2.r1.z = 1000000000 * Gc * ρ * (-(rdot f.un ⟨0, 0, 1⟩ * rdot (cross f.un (loopJ f.pa f.pb f.pc thinStation)) ⟨0, 1, 0⟩) - δ) := by
  obtain ⟨hun, hpa⟩ := tetra_un0 hp hf
  obtain ⟨t, -, hpts, -, hn, -, -⟩ := face_facts tetra_isHull hp hf
  obtain ⟨t, ht, a, b, c, e0, e1, e2, hE, hperm, hpts', hh0, hh1, hh2⟩ := edges_of_hull tetra_isHull hp hf
  have ht' : t = (0, 1, 2) := (Option.some.inj ht).symm
  subst ht'
  have ea : f.pa = tetra.pt a := by unfold Face.pa; rw [hpts']; rfl
  have eb : f.pb = tetra.pt b := by unfold Face.pb; rw [hpts']; rfl
  have ec : f.pc = tetra.pt c := by unfold Face.pc; rw [hpts']; rfl
  have hz : f.height thinStation = 0 := by
    show rdot f.un (f.pa.sub thinStation) = 0
    rw [rdot_sub, hpa, hun]; simp [rdot, thinStation]
  have eo : (eps <. Arith.abs (f.height thinStation)) = false := by
    rw [Bool.eq_false_iff, ne_eq, r_lt, hz]
    have : (0 : ℝ) < repsilon := by unfold repsilon; positivity
    simp only [r_abs, abs_zero, not_lt, r_eps]
    exact this.le
  have hedge : ∀ (j : Nat) (e : Edge ℝ), [e0, e1, e2][j]? = some e → p.edgeAt 0 j = some e := by
    intro j e hj
    unfold Poly.edgeAt
    rw [hf, Option.bind_some, hE]
    exact hj
  have hval : ∀ (j : Nat) (e : Edge ℝ), [e0, e1, e2][j]? = some e → edgeValue p thinStation true 0 e = edgeIntegral e thinStation true := by
    intro j e hj
    obtain ⟨i', j', e', htw, -⟩ := wellTwinned_of_hull tetra_isHull hp 0 j e (hedge j e hj)
    unfold edgeValue
    rw [htw]
    simp
  have clear : ∀ (j : Nat) (e : Edge ℝ) (i i' : Nat), [e0, e1, e2][j]? = some e → e.start = tetra.pt i → e.fin = tetra.pt i' → i < 4 → i' < 4 → i ≠ i' → ¬ (i = 0 ∧ i' = 1) → ¬ (i = 1 ∧ i' = 0) →
      ∃ d, edgeValue p thinStation true 0 e = .ok (V3.smul (lineJ (e.start.sub thinStation) (e.fin.sub e.start)) (e.fin.sub e.start), d) := by
    intro j e i i' hj hs hfn hi hi' hne h01 h10
    have hpr := edge_proper tetra_isHull hp (hedge j e hj)
    rw [hval j e hj]
    have := edgeIntegral_clear hpr (obs := thinStation) (by rw [hs, hfn]; exact thin_clear i i' hi hi' hne h01 h10) true
    rwa [hpr.vector] at this
  have thin : ∀ (j : Nat) (e : Edge ℝ), [e0, e1, e2][j]? = some e → e.start = tetra.pt 1 → e.fin = tetra.pt 0 → ∃ x d, x ≤ -(1 / 5) ∧
      edgeValue p thinStation true 0 e = .ok (V3.smul x (e.fin.sub e.start), d) ∧ 0 < lineJ (e.start.sub thinStation) (e.fin.sub e.start) := by
    intro j e hj hs hfn
    rw [hval j e hj]
    exact thin_edge (edge_proper tetra_isHull hp (hedge j e hj)) hs hfn
  have hpos := hn.pos
  rw [ea, eb, ec, hun] at hpos
  unfold faceValue omegaValue at hg
  rw [eo] at hg
  simp only [Bool.false_eq_true, if_false] at hg
  rw [hE] at hg
  have hnd : [a, b, c].Nodup := hperm.nodup_iff.mpr (by decide)
  have ma : a ∈ [0, 1, 2] := hperm.subset (by simp)
  have mb : b ∈ [0, 1, 2] := hperm.subset (by simp)
  have mc : c ∈ [0, 1, 2] := hperm.subset (by simp)
  have hz' : rdot f.un (f.pa.sub thinStation) = 0 := hz
  have finish : ∀ (u v w : ℝ) (d0 d1 d2 : Option (M3 ℝ)), edgeValue p thinStation true 0 e0 = .ok (V3.smul u (e0.fin.sub e0.start), d0) →
      edgeValue p thinStation true 0 e1 = .ok (V3.smul v (e1.fin.sub e1.start), d1) → edgeValue p thinStation true 0 e2 = .ok (V3.smul w (e2.fin.sub e2.start), d2) →
      g.2.r1.z = 1000000000 * Gc * ρ * -(u * (e0.fin.sub e0.start).x + v * (e1.fin.sub e1.start).x + w * (e2.fin.sub e2.start).x) := by
    intro u v w d0 d1 d2 v0 v1 v2
    simp only [edgesValue, v0, v1, v2, fieldOfEdges, Except.ok.injEq] at hg
    rw [← hg, hz, hun]
    simp only [sumPqr]
    unfold faceField
    simp
    ring
  have target : -(rdot f.un ⟨0, 0, 1⟩ * rdot (cross f.un (loopJ f.pa f.pb f.pc thinStation)) ⟨0, 1, 0⟩) =
      -(lineJ ((tetra.pt a).sub thinStation) ((tetra.pt b).sub (tetra.pt a)) * ((tetra.pt b).sub (tetra.pt a)).x +
        lineJ ((tetra.pt b).sub thinStation) ((tetra.pt c).sub (tetra.pt b)) * ((tetra.pt c).sub (tetra.pt b)).x +
        lineJ ((tetra.pt c).sub thinStation) ((tetra.pt a).sub (tetra.pt c)) * ((tetra.pt a).sub (tetra.pt c)).x) := by
    rw [hun, ea, eb, ec]
    unfold loopJ
    simp [rdot]
  rw [target]
  have kx : ((tetra.pt 0).sub (tetra.pt 1)).x = -1 := by rw [thin_dir.1]
  simp only [List.mem_cons, List.not_mem_nil, or_false] at ma mb mc
  rcases ma with rfl | rfl | rfl <;> rcases mb with rfl | rfl | rfl <;> rcases mc with rfl | rfl | rfl <;>
    first
    | exact absurd hnd (by decide)
    | (exfalso; revert hpos; simp [tetra_pt0, tetra_pt1, tetra_pt2, rdot]; done)
    | skip
  · obtain ⟨d0, v0⟩ := clear 0 e0 _ _ rfl hh0.1 hh0.2 (by decide) (by decide) (by decide) (by decide) (by decide)
    obtain ⟨d1, v1⟩ := clear 1 e1 _ _ rfl hh1.1 hh1.2 (by decide) (by decide) (by decide) (by decide) (by decide)
    obtain ⟨x, d2, hx, v2, hJ⟩ := thin 2 e2 rfl hh2.1 hh2.2
    have := finish _ _ _ _ _ _ v0 v1 v2
    simp only [hh0, hh1, hh2, kx] at this hJ ⊢
    refine ⟨lineJ ((tetra.pt 1).sub thinStation) ((tetra.pt 0).sub (tetra.pt 1)) - x, by linarith, this.trans ?_⟩
    ring
  · obtain ⟨x, d0, hx, v0, hJ⟩ := thin 0 e0 rfl hh0.1 hh0.2
    obtain ⟨d1, v1⟩ := clear 1 e1 _ _ rfl hh1.1 hh1.2 (by decide) (by decide) (by decide) (by decide) (by decide)
    obtain ⟨d2, v2⟩ := clear 2 e2 _ _ rfl hh2.1 hh2.2 (by decide) (by decide) (by decide) (by decide) (by decide)
    have := finish _ _ _ _ _ _ v0 v1 v2
    simp only [hh0, hh1, hh2, kx] at this hJ ⊢
    refine ⟨lineJ ((tetra.pt 1).sub thinStation) ((tetra.pt 0).sub (tetra.pt 1)) - x, by linarith, this.trans ?_⟩
    ring
  · obtain ⟨d0, v0⟩ := clear 0 e0 _ _ rfl hh0.1 hh0.2 (by decide) (by decide) (by decide) (by decide) (by decide)
    obtain ⟨x, d1, hx, v1, hJ⟩ := thin 1 e1 rfl hh1.1 hh1.2
    obtain ⟨d2, v2⟩ := clear 2 e2 _ _ rfl hh2.1 hh2.2 (by decide) (by decide) (by decide) (by decide) (by decide)
    have := finish _ _ _ _ _ _ v0 v1 v2
    simp only [hh0, hh1, hh2, kx] at this hJ ⊢
    refine ⟨lineJ ((tetra.pt 1).sub thinStation) ((tetra.pt 0).sub (tetra.pt 1)) - x, by linarith, this.trans ?_⟩
    ring

/-- the faces not in whose plane the station is -/
theorem thin_face1 (hp : mkPoly tetra inHull = .ok p) {f : Face ℝ} (hf : p.faces[1]? = some f) (ρ Gc : ℝ) {g : V3 ℝ × M3 ℝ}
    (hg : faceValue p thinStation ρ Gc true 1 f = .ok g) : g.2.r1.z = 1000000000 * Gc * ρ * faceSlope f thinStation ⟨0, 1, 0⟩ ⟨0, 0, 1⟩ := by
  obtain ⟨hun, hpa⟩ := tetra_un1 hp hf
  obtain ⟨t, -, hpts, -, hn, -, -⟩ := face_facts tetra_isHull hp hf
  have hH : rdot f.un (f.pa.sub thinStation) = 1 / 1000000000 := by
    rw [rdot_sub, hpa, hun]; simp [rdot, thinStation]
  have h1 : repsilon < |rdot f.un (f.pa.sub thinStation)| := by
    rw [hH]; unfold repsilon; norm_num
  have h0 : rdot f.un (f.pa.sub thinStation) ≠ 0 := by rw [hH]; norm_num
  have hht : f.height thinStation = rdot f.un (f.pa.sub thinStation) := rfl
  have hform := faceW_normal_form hn h0 ⟨0, 1, 0⟩
  have hG := faceH_normal_form hn h0 ⟨0, 1, 0⟩ ⟨0, 0, 1⟩
  have hS : faceSlope f thinStation ⟨0, 1, 0⟩ ⟨0, 0, 1⟩ = rdot f.un (f.pa.sub thinStation) * (npSign (rdot f.un (f.pa.sub thinStation)) *
      (dOmega (f.pa.sub thinStation) (f.pb.sub thinStation) (f.pc.sub thinStation)).z * -1) := by
    unfold faceSlope
    rw [mul_sub, ← mul_assoc, mul_comm (vlen _) (rdot f.un (f.pa.sub thinStation)), mul_assoc, hG]
    rw [show rdot f.un ⟨0, 0, 1⟩ = 0 by rw [hun]; simp [rdot], zero_mul, mul_zero, sub_zero]
    congr 1
    rw [hun]
    simp [rdot]
  rw [hS]
  unfold faceValue at hg
  rw [omegaValue_solidAngle hpts hn h1] at hg
  simp only [if_true] at hg
  split at hg
  · cases hg
  · next vs _ =>
    rcases vs with _ | ⟨v, vs⟩
    · cases hg
    · simp only [fieldOfEdges, Except.ok.injEq] at hg
      rw [← hg, hht]
      generalize dOmega (f.pa.sub thinStation) (f.pb.sub thinStation) (f.pc.sub thinStation) = dw
      generalize npSign (rdot f.un (f.pa.sub thinStation)) = sg
      generalize rdot f.un (f.pa.sub thinStation) = H
      generalize solidAngle f.un f.pa f.pb f.pc thinStation = Ω
      rw [hun]
      unfold faceField
      simp
      left
      ring

theorem thin_face23 (hp : mkPoly tetra inHull = .ok p) {k : Nat} {f : Face ℝ} (hf : p.faces[k]? = some f) (hk : k = 2 ∨ k = 3) (ρ Gc : ℝ) {g : V3 ℝ × M3 ℝ}
    (hg : faceValue p thinStation ρ Gc true k f = .ok g) : g.2.r1.z = 1000000000 * Gc * ρ * faceSlope f thinStation ⟨0, 1, 0⟩ ⟨0, 0, 1⟩ := by
  have heps : repsilon = 1 / 4503599627370496 := by unfold repsilon; norm_num
  rw [faceValue_tensor_clear tetra_isHull hp hf (s := thinStation) ?_ ?_ ρ Gc hg]
  · rfl
  · rw [rdot_sub, heps]
    rcases hk with rfl | rfl
    · obtain ⟨hun, hpa⟩ := tetra_un2 hp hf
      rw [hpa, hun]; simp [rdot, thinStation]; norm_num
    · obtain ⟨u, hun, hu, hpa⟩ := tetra_un3 hp hf
      rw [hpa, hun]; simp only [rdot, thinStation]
      refine lt_of_lt_of_le ?_ (le_abs_self _)
      linarith
  · intro j e he
    have hE : p.edgeAt k j = some e := by unfold Poly.edgeAt; rw [hf]; exact he
    obtain ⟨t, ht, ⟨a, ha, hst⟩, b, hb, hfn⟩ := edge_start_corner tetra_isHull hp hE
    have hpr := edge_proper tetra_isHull hp hE
    have hab : a ≠ b := by rintro rfl; exact hpr.ne (hst.trans hfn.symm)
    have hm := List.mem_of_getElem? ht
    have ha4 : a < 4 := tetra_isHull.cornerIndex t hm a ha
    have hb4 : b < 4 := tetra_isHull.cornerIndex t hm b hb
    have hno : (a ≠ 0 ∧ b ≠ 0) ∨ (a ≠ 1 ∧ b ≠ 1) := by
      rcases hk with rfl | rfl
      · have ht' : t = (0, 2, 3) := (Option.some.inj ht).symm
        subst ht'
        right
        constructor
        · rcases ha with rfl | rfl | rfl <;> decide
        · rcases hb with rfl | rfl | rfl <;> decide
      · have ht' : t = (1, 2, 3) := (Option.some.inj ht).symm
        subst ht'
        left
        constructor
        · rcases ha with rfl | rfl | rfl <;> decide
        · rcases hb with rfl | rfl | rfl <;> decide
    rw [hst, hfn]
    constructor
    · exact thin_clear a b ha4 hb4 hab (by omega) (by omega)
    · exact thin_clear b a hb4 ha4 hab.symm (by omega) (by omega)

/-- the distances of the station -/
theorem thin_out {q : P3} (hq : q ∈ tetra.body) : 2 ≤ dist3 q thinStation := by
  rw [tetra_body] at hq
  obtain ⟨h1, h2, h3, h4⟩ := hq
  unfold dist3 thinStation
  apply Real.le_sqrt_of_sq_le
  simp only
  nlinarith [sq_nonneg (q.2.1 - 1 / 1000000000), sq_nonneg (q.2.2 - 0)]

theorem thin_notMem : thinStation.toP ∉ tetra.body := by
  rw [tetra_body]
  rintro ⟨h1, -⟩
  simp [V3.toP, thinStation] at h1
  linarith

theorem tetra_volume_le : volume.real tetra.body ≤ 1 := by
  have hsub : tetra.body ⊆ Set.Icc (0 : ℝ) 1 ×ˢ (Set.Icc (0 : ℝ) 1 ×ˢ Set.Icc (0 : ℝ) 1) := by
    intro q hq
    rw [tetra_body] at hq
    obtain ⟨h1, h2, h3, h4⟩ := hq
    exact ⟨⟨h1, by linarith⟩, ⟨h2, by linarith⟩, h3, by linarith⟩
  have hvol : volume (Set.Icc (0 : ℝ) 1 ×ˢ (Set.Icc (0 : ℝ) 1 ×ˢ Set.Icc (0 : ℝ) 1) : Set P3) = 1 := by
    rw [Measure.volume_eq_prod, Measure.prod_prod, Measure.volume_eq_prod, Measure.prod_prod, Real.volume_Icc]
    norm_num
  have := measureReal_mono (μ := volume) hsub (by rw [hvol]; exact ENNReal.one_ne_top)
  refine this.trans (le_of_eq ?_)
  rw [measureReal_def, hvol]; rfl

/-- **The exclusion of the thin tubes in C19 cannot be dropped.**  Two length units in front of the unit tetrahedron and a billionth
of a unit beside the line of one of its edges, the query returns a tensor whose yz component is off by at least
`10⁹ Gc ρ / 5`, more than twice the size of the true component. -/
theorem C64_thin_tensor (hp : mkPoly tetra inHull = .ok p) {ρ Gc : ℝ} (hK : 0 ≤ Gc * ρ) :
    ∃ G T D, Call.onNew p ⟨thinStation, ρ, Gc, true⟩ = .ok (G, T) ∧
      HasDerivAt (fun x => 1000000000 * Gc * ρ * (attraction tetra.body (thinStation.add (V3.smul x ⟨0, 0, 1⟩))).y) D 0 ∧
      |D| ≤ 1000000000 * Gc * ρ / 10 ∧ T.r1.z ≤ D - 1000000000 * Gc * ρ / 5 := by
  have hfr : thinStation.toP ∉ frontier tetra.body := fun h => thin_notMem (tetra.body_compact.isClosed.frontier_subset h)
  have hlen : ∀ i j, i < 4 → j < 4 → vlen ((tetra.pt j).sub (tetra.pt i)) < 2 := by
    intro i j hi hj
    unfold vlen
    rw [Real.sqrt_lt' (by norm_num)]
    interval_cases i <;> interval_cases j <;> simp [tetra_pt0, tetra_pt1, tetra_pt2, tetra_pt3, rdot] <;> norm_num
  have hfar : ∀ i, i < 4 → 2 ≤ vlen ((tetra.pt i).sub thinStation) := by
    intro i hi
    have := thin_out (Hull.mem_body (Hull.pt_mem (h := tetra) hi))
    rwa [← vlen_dist3, toP_toV] at this
  have hco : ∀ t ∈ tetra.simplices, ∀ i, Corner t i → i < 4 := fun t ht i hi => tetra_isHull.cornerIndex t ht i hi
  obtain ⟨G, T, hv⟩ := C22_gradient tetra_isHull hp (obs := thinStation) (by
      intro t ht i hi h0
      have := hfar i (hco t ht i hi)
      rw [h0] at this
      have e : thinStation.sub thinStation = V3.zeros := by refine V3.ext' ?_ ?_ ?_ <;> simp
      rw [e, vlen_zeros] at this
      linarith) (by
      intro t ht i j hi hj _
      have h1 := hlen i j (hco t ht i hi) (hco t ht j hj)
      have h2 := hfar i (hco t ht i hi)
      exact (h1.trans_le h2).ne) ρ Gc true
  have hk : ∀ k : Fin p.faces.length, IsNormal (p.faces[k]).un (p.faces[k]).pa (p.faces[k]).pb (p.faces[k]).pc ∧
      (rdot (p.faces[k]).un ((p.faces[k]).pa.sub thinStation) = 0 → OffTriangle (p.faces[k]).pa (p.faces[k]).pb (p.faces[k]).pc thinStation) := by
    intro k
    have hf : p.faces[(k : Nat)]? = some p.faces[k] := List.getElem?_eq_getElem k.2
    obtain ⟨-, -, -, -, hn, -, -⟩ := face_facts tetra_isHull hp hf
    exact ⟨hn, offTriangle_of_plane tetra_isHull hp hf hfr⟩
  have hd : HasDerivAt (fun x => 1000000000 * Gc * ρ * (attraction tetra.body (thinStation.add (V3.smul x ⟨0, 0, 1⟩))).y)
      (1000000000 * Gc * ρ * ∑ k : Fin p.faces.length, faceSlope p.faces[k] thinStation ⟨0, 1, 0⟩ ⟨0, 0, 1⟩) 0 := by
    simp only [fun x => (attraction_shares tetra_isHull hp (thinStation.add (V3.smul x ⟨0, 0, 1⟩))).2.1]
    exact (HasDerivAt.fun_sum (fun k _ => faceShare_path' (hk k).1 (hk k).2 _ _)).const_mul _
  refine ⟨G, T, _, hv, hd, ?_, ?_⟩
  · -- the size of the true component
    have h1 := (outside_deriv tetra.body_compact thin_notMem ⟨0, 1, 0⟩ ⟨0, 0, 1⟩).const_mul (1000000000 * Gc * ρ)
    have e : ∀ x, (∫ q in tetra.body, kernelAt (thinStation.add (V3.smul x ⟨0, 0, 1⟩)) ⟨0, 1, 0⟩ q) =
        (attraction tetra.body (thinStation.add (V3.smul x ⟨0, 0, 1⟩))).y := by
      intro x; rw [kernelAt_y]; rfl
    simp only [e] at h1
    rw [hd.unique h1, abs_mul, abs_of_nonneg (by nlinarith : 0 ≤ 1000000000 * Gc * ρ)]
    have hfin : volume tetra.body ≠ ⊤ := tetra.body_compact.measure_ne_top
    have hb : ‖∫ q in tetra.body, pull2 ((P3.toV q).sub thinStation) ⟨0, 1, 0⟩ ⟨0, 0, 1⟩‖ ≤ 1 / 10 * volume.real tetra.body := by
      refine norm_setIntegral_le_of_norm_le_const (lt_top_iff_ne_top.mpr hfin) fun q hq => ?_
      have h2 := thin_out hq
      rw [← vlen_dist3] at h2
      rw [tetra_body] at hq
      obtain ⟨q1, q2, q3, q4⟩ := hq
      set r := vlen ((P3.toV q).sub thinStation) with hr
      have hpl : pull2 ((P3.toV q).sub thinStation) ⟨0, 1, 0⟩ ⟨0, 0, 1⟩ = 3 * q.2.2 * (q.2.1 - 1 / 1000000000) / r ^ 5 := by
        unfold pull2
        rw [← hr]
        simp only [rdot, P3.toV, thinStation, sub_x, sub_y, sub_z]
        simp
        ring
      rw [hpl, Real.norm_eq_abs, abs_div, abs_of_pos (by positivity : 0 < r ^ 5), div_le_iff₀ (by positivity)]
      have h5 : (2 : ℝ) ^ 5 ≤ r ^ 5 := by gcongr
      have ha : |3 * q.2.2 * (q.2.1 - 1 / 1000000000)| ≤ 3 := by
        rw [abs_le]
        constructor <;> nlinarith
      linarith
    rw [Real.norm_eq_abs] at hb
    have hv1 := tetra_volume_le
    have : |∫ q in tetra.body, pull2 ((P3.toV q).sub thinStation) ⟨0, 1, 0⟩ ⟨0, 0, 1⟩| ≤ 1 / 10 := by linarith
    nlinarith
  · -- the error
    rw [onNew_closed (wellTwinned_of_hull tetra_isHull hp)] at hv
    have hn4 : p.faces.length = 4 := (C24_counter_clockwise tetra_isHull hp).1
    have hlist : ∀ L : List (Face ℝ), L.length = 4 → ∃ f0 f1 f2 f3, L = [f0, f1, f2, f3] := by
      intro L hL
      rcases L with _ | ⟨f0, _ | ⟨f1, _ | ⟨f2, _ | ⟨f3, _ | ⟨f4, fs⟩⟩⟩⟩⟩ <;> simp at hL
      exact ⟨_, _, _, _, rfl⟩
    obtain ⟨f0, f1, f2, f3, hF⟩ := hlist _ hn4
    have g0 : p.faces[0]? = some f0 := by rw [hF]; rfl
    have g1 : p.faces[1]? = some f1 := by rw [hF]; rfl
    have g2 : p.faces[2]? = some f2 := by rw [hF]; rfl
    have g3 : p.faces[3]? = some f3 := by rw [hF]; rfl
    obtain ⟨hun, hpa⟩ := tetra_un0 hp g0
    have hz : rdot f0.un (f0.pa.sub thinStation) = 0 := by rw [rdot_sub, hpa, hun]; simp [rdot, thinStation]
    obtain ⟨-, -, -, -, hn0, -, -⟩ := face_facts tetra_isHull hp g0
    have hpl := faceSlope_plane hn0 hz (offTriangle_of_plane tetra_isHull hp g0 hfr hz) ⟨0, 1, 0⟩ ⟨0, 0, 1⟩
    have hsum : ∑ k : Fin p.faces.length, faceSlope p.faces[k] thinStation ⟨0, 1, 0⟩ ⟨0, 0, 1⟩ =
        faceSlope f0 thinStation ⟨0, 1, 0⟩ ⟨0, 0, 1⟩ + faceSlope f1 thinStation ⟨0, 1, 0⟩ ⟨0, 0, 1⟩ +
        faceSlope f2 thinStation ⟨0, 1, 0⟩ ⟨0, 0, 1⟩ + faceSlope f3 thinStation ⟨0, 1, 0⟩ ⟨0, 0, 1⟩ := by
      have := Fin.sum_univ_fun_getElem p.faces (fun f => faceSlope f thinStation ⟨0, 1, 0⟩ ⟨0, 0, 1⟩)
      refine this.trans ?_
      rw [hF]; simp; ring
    rw [hsum]
    rw [hF] at hv
    simp only [facesValue] at hv
    split at hv
    · cases hv
    · next G0 T0 h0 =>
      obtain ⟨δ, hδ, e0⟩ := thin_face0 hp g0 ρ Gc h0
      rw [← hpl] at e0
      split at hv
      · cases hv
      · next G1 T1 h1 =>
        have e1 := thin_face1 hp g1 ρ Gc h1
        split at hv
        · cases hv
        · next G2 T2 h2 =>
          have e2 := thin_face23 hp g2 (.inl rfl) ρ Gc h2
          split at hv
          · cases hv
          · next G3 T3 h3 =>
            have e3 := thin_face23 hp g3 (.inr rfl) ρ Gc h3
            cases hv
            simp only at e0 e1 e2 e3
            have hT : ((((M3.zeros.add T0).add T1).add T2).add T3).r1.z = T0.r1.z + T1.r1.z + T2.r1.z + T3.r1.z := by
              show (((0 : ℝ) + _) + _) + _ + _ = _
              ring
            rw [hT, e0, e1, e2, e3]
            have : 0 ≤ 1000000000 * Gc * ρ := by nlinarith
            nlinarith

end

/-- **C64 fails**: that a station is at least one length unit away from the body, on no line of an edge, and in the plane of every face
or farther than `eps` from it, is not enough for the tensor to be the gradient of the attraction. -/
theorem C64_false : ¬ ∀ (h : Hull ℝ) (inHull : V3 ℝ → Bool) (p : Poly ℝ), h.IsHull → mkPoly h inHull = .ok p → ∀ s : V3 ℝ,
    (∀ q ∈ h.body, 1 ≤ dist3 q s) →
    (∀ t ∈ h.simplices, ∀ i j, Corner t i → Corner t j → i ≠ j → cross ((h.pt i).sub s) ((h.pt j).sub (h.pt i)) ≠ V3.zeros) →
    (∀ f ∈ p.faces, rdot f.un (f.pa.sub s) = 0 ∨ repsilon < |rdot f.un (f.pa.sub s)|) →
    ∀ ρ Gc G T, Call.onNew p ⟨s, ρ, Gc, true⟩ = .ok (G, T) →
      HasDerivAt (fun x => 1000000000 * Gc * ρ * (attraction h.body (s.add (V3.smul x ⟨0, 0, 1⟩))).y) T.r1.z 0 := by
  intro H
  obtain ⟨p, hp⟩ := hull_mkPoly_ok tetra_isHull (fun _ => true)
  obtain ⟨G, T, D, hv, hD, -, hT⟩ := C64_thin_tensor hp (ρ := 1) (Gc := 1) (by norm_num)
  have := H tetra _ p tetra_isHull hp thinStation (fun q hq => by linarith [thin_out hq]) ?_ ?_ 1 1 G T hv
  · have e := hD.unique this
    rw [← e] at hT
    linarith
  · intro t ht i j hi hj hij h0
    have hi4 : i < 4 := tetra_isHull.cornerIndex t ht i hi
    have hj4 : j < 4 := tetra_isHull.cornerIndex t ht j hj
    have hx := congrArg V3.x h0
    have hy := congrArg V3.y h0
    have hz := congrArg V3.z h0
    revert hx hy hz
    interval_cases i <;> interval_cases j <;> first | exact absurd rfl hij | skip
    all_goals
      simp only [cross_x, cross_y, cross_z, sub_x, sub_y, sub_z, zeros_x, zeros_y, zeros_z, tetra_pt0, tetra_pt1, tetra_pt2, tetra_pt3, thinStation]
      norm_num
  · intro f hf
    obtain ⟨k, hk⟩ := List.getElem?_of_mem hf
    have hn4 : p.faces.length = 4 := (C24_counter_clockwise tetra_isHull hp).1
    have hk4 : k < 4 := by rw [← hn4]; exact (List.getElem?_eq_some_iff.mp hk).1
    have heps : repsilon = 1 / 4503599627370496 := by unfold repsilon; norm_num
    rw [rdot_sub, heps]
    interval_cases k
    · obtain ⟨hun, hpa⟩ := tetra_un0 hp hk
      left; rw [hpa, hun]; simp [rdot, thinStation]
    · obtain ⟨hun, hpa⟩ := tetra_un1 hp hk
      right; rw [hpa, hun]; simp [rdot, thinStation]; norm_num
    · obtain ⟨hun, hpa⟩ := tetra_un2 hp hk
      right; rw [hpa, hun]; simp [rdot, thinStation]; norm_num
    · obtain ⟨u, hun, hu, hpa⟩ := tetra_un3 hp hk
      right; rw [hpa, hun]; simp only [rdot, thinStation]
      refine lt_of_lt_of_le ?_ (le_abs_self _)
      linarith

/-- **C64, what holds.**  Off the surface, outside the thin tubes (`Hull.Clear`) and not within `eps` of a face plane without being in it
(`Hull.Regular`), the rows of the tensor are the derivatives of the attraction. -/
theorem C64_partial {h : Hull ℝ} {inHull : V3 ℝ → Bool} {p : Poly ℝ} (hh : h.IsHull) (hp : mkPoly h inHull = .ok p) {s : V3 ℝ}
    (hr : h.Regular s) (hc : h.Clear s) (hoff : s.toP ∉ frontier h.body) (ρ Gc : ℝ) :
    ∃ G T, Call.onNew p ⟨s, ρ, Gc, true⟩ = .ok (G, T) ∧ ∀ d,
      HasDerivAt (fun x => 1000000000 * Gc * ρ * (attraction h.body (s.add (V3.smul x d))).x) (rdot T.r0 d) 0 ∧
      HasDerivAt (fun x => 1000000000 * Gc * ρ * (attraction h.body (s.add (V3.smul x d))).y) (rdot T.r1 d) 0 ∧
      HasDerivAt (fun x => 1000000000 * Gc * ρ * (attraction h.body (s.add (V3.smul x d))).z) (rdot T.r2 d) 0 := by
  obtain ⟨G, T, hv⟩ := C19_newton_returned hh hp ⟨hr, hc, hoff⟩ ρ Gc
  exact ⟨G, T, hv, C19_newton hh hp ⟨hr, hc, hoff⟩ hv⟩

/-- the thin tube is not empty: the edge from (1,0,0) to (0,0,0) and the station above -/
example : ∃ e : Edge ℝ, e.Proper ∧ cross (e.start.sub thinStation) e.vector ≠ V3.zeros ∧
    vlen (e.start.sub thinStation) + rdot (e.start.sub thinStation) e.vector / vlen e.vector < repsilon ∧ repsilon < vlen (e.start.sub thinStation) := by
  obtain ⟨d1, d2⟩ := thin_dist
  obtain ⟨k1, k2, k3⟩ := thin_dir
  refine ⟨⟨tetra.pt 1, tetra.pt 0, (1, 0), ⟨-1, 0, 0⟩, vlen ⟨-1, 0, 0⟩, 1, none⟩, ⟨k1.symm, rfl, ?_⟩, ?_, ?_, ?_⟩
  · show tetra.pt 1 ≠ tetra.pt 0
    rw [tetra_pt0, tetra_pt1]
    intro h; have := congrArg V3.x h; simp at this
  · intro h0
    have := congrArg V3.z h0
    rw [tetra_pt1] at this
    simp [thinStation] at this
  · simp only [k2, k3]; linarith
  · have heps : repsilon = 1 / 4503599627370496 := by unfold repsilon; norm_num
    simp only [heps]; linarith

/-- a station in a face plane where the hypotheses of `C64_partial` hold -/
example : tetra.Regular ⟨2, 3, 0⟩ ∧ tetra.Clear ⟨2, 3, 0⟩ ∧ V3.toP ⟨2, 3, 0⟩ ∉ frontier tetra.body :=
  ⟨tetra_tensorRegular_plane.regular, tetra_tensorRegular_plane.clear, tetra_tensorRegular_plane.off⟩

end
end Geec
