import Verif.Lemmas.LineInt
import Verif.Props.Gravity
/-
C13, C14: the integral along an edge (exact arithmetic).
-/
namespace Geec
open Arith MeasureTheory
noncomputable section

theorem lineJ_arc {R L : V3 ℝ} (hL : L ≠ V3.zeros) (k : ℝ) :
    ∫ t in (0 : ℝ)..vlen L, k / vlen (R.add (V3.smul t (L.sdiv (vlen L)))) = vlen L * (k * lineJ R L) := by
  have hl := vlen_pos hL
  have h := intervalIntegral.smul_integral_comp_mul_left (a := 0) (b := 1) (fun t => k / vlen (R.add (V3.smul t (L.sdiv (vlen L))))) (vlen L)
  rw [mul_zero, mul_one, smul_eq_mul] at h
  rw [← h]
  unfold lineJ
  rw [← intervalIntegral.integral_const_mul (r := k)]
  congr 2
  funext x
  have : R.add (V3.smul (vlen L * x) (L.sdiv (vlen L))) = R.add (V3.smul x L) := by
    refine V3.ext' ?_ ?_ ?_ <;> simp <;> field_simp
  rw [this, div_eq_mul_one_div]

/-- **C13** At a station clear of the edge, `(P, Q, R)` is the integral, along the edge from its start to its end, of
the unit tangent divided by the distance to the station. -/
theorem C13_line_integral {e : Edge ℝ} (he : e.Proper) {obs : V3 ℝ} (h : ClearOf e.start e.fin obs) (gr : Bool) :
    ∃ P Q R d, edgeIntegral e obs gr = .ok (⟨P, Q, R⟩, d) ∧
      P = ∫ t in (0 : ℝ)..vlen (e.fin.sub e.start), (((e.fin.sub e.start).sdiv (vlen (e.fin.sub e.start))).x /
        vlen ((e.start.add (V3.smul t ((e.fin.sub e.start).sdiv (vlen (e.fin.sub e.start))))).sub obs)) ∧
      Q = ∫ t in (0 : ℝ)..vlen (e.fin.sub e.start), (((e.fin.sub e.start).sdiv (vlen (e.fin.sub e.start))).y /
        vlen ((e.start.add (V3.smul t ((e.fin.sub e.start).sdiv (vlen (e.fin.sub e.start))))).sub obs)) ∧
      R = ∫ t in (0 : ℝ)..vlen (e.fin.sub e.start), (((e.fin.sub e.start).sdiv (vlen (e.fin.sub e.start))).z /
        vlen ((e.start.add (V3.smul t ((e.fin.sub e.start).sdiv (vlen (e.fin.sub e.start))))).sub obs)) := by
  have hL := sub_ne_zeros he.ne
  have hl := vlen_pos hL
  obtain ⟨d, hd⟩ := edgeIntegral_clear he h gr
  rw [he.vector] at hd
  set L := e.fin.sub e.start
  have hsub : ∀ t, (e.start.add (V3.smul t (L.sdiv (vlen L)))).sub obs = (e.start.sub obs).add (V3.smul t (L.sdiv (vlen L))) := by
    intro t; refine V3.ext' ?_ ?_ ?_ <;> simp <;> ring
  simp only [hsub, lineJ_arc hL]
  refine ⟨_, _, _, d, hd, ?_, ?_, ?_⟩ <;> simp <;> field_simp

/-- edges of a body are as the constructor makes them -/
theorem edge_proper {h : Hull ℝ} (hh : h.IsHull) {inHull : V3 ℝ → Bool} {p : Poly ℝ} (hp : mkPoly h inHull = .ok p)
    {i j : Nat} {e : Edge ℝ} (he : p.edgeAt i j = some e) : e.Proper := by
  obtain ⟨f, hf, hfe⟩ := Option.bind_eq_some_iff.mp he
  obtain ⟨-, h24⟩ := C24_counter_clockwise hh hp
  obtain ⟨s, a, b, c, hs, -, hperm, hpts, hpos, hedges, hvec⟩ := h24 i f hf
  have hmem := List.mem_of_getElem? hfe
  obtain ⟨h1, h2⟩ := hvec e hmem
  refine ⟨h1, h2, ?_⟩
  have hz : ∀ u v : V3 ℝ, u = v → v.sub u = V3.zeros := by rintro u v rfl; refine V3.ext' ?_ ?_ ?_ <;> simp
  have hab : h.pt a ≠ h.pt b := by
    intro h0
    rw [hz _ _ h0] at hpos
    simp [rdot] at hpos
  have hac : h.pt a ≠ h.pt c := by
    intro h0
    rw [hz _ _ h0] at hpos
    simp [rdot] at hpos
  have hbc : h.pt b ≠ h.pt c := by
    intro h0
    rw [h0] at hpos
    simp [rdot] at hpos
    have : f.un.x * ((h.pt c).y - (h.pt a).y) = f.un.x * ((h.pt c).y - (h.pt a).y) := rfl
    ring_nf at hpos
    exact lt_irrefl _ hpos
  have hm2 : (e.simplex, e.start, e.fin) ∈ f.edges.map (fun e => (e.simplex, e.start, e.fin)) := List.mem_map.mpr ⟨e, hmem, rfl⟩
  rw [hedges] at hm2
  simp only [List.mem_cons, List.not_mem_nil, or_false, Prod.mk.injEq] at hm2
  rcases hm2 with ⟨-, h3, h4⟩ | ⟨-, h3, h4⟩ | ⟨-, h3, h4⟩ <;> rw [h3, h4]
  · exact hab
  · exact hbc
  · exact hac.symm

/-- **C14** Two edges with exchanged ends: the value computed for one is the negated value computed for the other. -/
theorem C14_antisymmetric {e e' : Edge ℝ} (he : e.Proper) (he' : e'.Proper) (hs : e'.start = e.fin) (hf : e'.fin = e.start)
    {obs : V3 ℝ} (h : ClearOf e.start e.fin obs) (h' : ClearOf e.fin e.start obs) (gr gr' : Bool) :
    ∃ v d d', edgeIntegral e obs gr = .ok (v, d) ∧ edgeIntegral e' obs gr' = .ok (v.neg, d') := by
  obtain ⟨d, hd⟩ := edgeIntegral_clear he h gr
  obtain ⟨d', hd'⟩ := edgeIntegral_clear he' (by rw [hs, hf]; exact h') gr'
  refine ⟨_, d, d', hd, ?_⟩
  rw [hd']
  have h1 : e'.vector = e.vector.neg := by
    rw [he.vector, he'.vector, hs, hf]; refine V3.ext' ?_ ?_ ?_ <;> simp
  have h2 : e'.start.sub obs = (e.start.sub obs).add e.vector := by
    rw [he.vector, hs]; refine V3.ext' ?_ ?_ ?_ <;> simp
  rw [h1, h2, lineJ_reverse]
  congr 2
  refine V3.ext' ?_ ?_ ?_ <;> simp

/-- the station is clear of all edges of the body, in both directions -/
def Poly.ClearEdges (p : Poly ℝ) (obs : V3 ℝ) : Prop :=
  ∀ i j e, p.edgeAt i j = some e → ClearOf e.start e.fin obs ∧ ClearOf e.fin e.start obs

/-- **C14** In a body, the value an edge ends up with, possibly from its twin, is the value it would compute itself:
which of the two faces is visited first does not matter. -/
theorem C14_twin_value {h : Hull ℝ} (hh : h.IsHull) {inHull : V3 ℝ → Bool} {p : Poly ℝ} (hp : mkPoly h inHull = .ok p)
    {i j : Nat} {e : Edge ℝ} (he : p.edgeAt i j = some e) {obs : V3 ℝ} (h1 : ClearOf e.start e.fin obs)
    (h2 : ClearOf e.fin e.start obs) (gr : Bool) :
    ∃ v d d', edgeIntegral e obs gr = .ok (v, d) ∧ edgeValue p obs gr i e = .ok (v, d') := by
  obtain ⟨f, hf, hfe⟩ := Option.bind_eq_some_iff.mp he
  obtain ⟨i', j', f', e', htw, hf', hfe', -, -, -, -, hes, hef, -⟩ := C25_twins hh hp hf hfe
  have he' : p.edgeAt i' j' = some e' := by unfold Poly.edgeAt; rw [hf']; exact hfe'
  obtain ⟨v, d, d', hv, hv'⟩ := C14_antisymmetric (edge_proper hh hp he) (edge_proper hh hp he') hes hef h1 h2 gr gr
  unfold edgeValue
  rw [htw]
  simp only [he', hv']
  by_cases hlt : i' < i
  · refine ⟨v, d, d'.map M3.neg, hv, ?_⟩
    rw [if_pos hlt]
    show Except.ok (pairNeg (v.neg, d')) = _
    unfold pairNeg
    congr 2
    refine V3.ext' ?_ ?_ ?_ <;> simp
  · exact ⟨v, d, d, hv, by rw [if_neg hlt]; exact hv⟩

/-! ### concrete cases -/

/-- a simple condition for an edge seen from aside: `2 eps |R| |L|² < |R × L|²` -/
theorem clearOf_aside {a b s : V3 ℝ}
    (h : 2 * repsilon * vlen (a.sub s) * rdot (b.sub a) (b.sub a) < rdot (cross (a.sub s) (b.sub a)) (cross (a.sub s) (b.sub a))) :
    ClearOf a b s := by
  set R := a.sub s
  set L := b.sub a
  have heps : (0 : ℝ) < repsilon := by unfold repsilon; positivity
  have hx : cross R L ≠ V3.zeros := by
    intro h0
    rw [h0] at h
    have h1 : 0 ≤ 2 * repsilon * vlen R * rdot L L := by
      have := vlen_nonneg R
      have := rdot_self_nonneg L
      positivity
    have h2 : rdot (V3.zeros : V3 ℝ) V3.zeros = 0 := by simp [rdot]
    linarith
  have hl := vlen_pos (right_ne_of_cross hx)
  have hr := vlen_pos (left_ne_of_cross hx)
  have hl2 := vlen_sq L
  have hr2 := vlen_sq R
  rw [lagrange, rdot_comm L R, ← hl2, ← hr2] at h
  obtain ⟨c1, c2⟩ := abs_lt.mp (cs_strict hx)
  refine .inl ⟨hx, ?_⟩
  have hb : rdot R L / vlen L * vlen L = rdot R L := div_mul_cancel₀ _ hl.ne'
  set b := rdot R L / vlen L
  rw [← hb] at h c1 c2
  have h3 : 2 * repsilon * vlen R * (vlen L * vlen L) < (vlen R * vlen R - b * b) * (vlen L * vlen L) := by linarith
  have h4 : 2 * repsilon * vlen R < vlen R * vlen R - b * b := lt_of_mul_lt_mul_right h3 (by positivity)
  have h5 : b < vlen R := by
    have : b * vlen L < vlen R * vlen L := c2
    exact lt_of_mul_lt_mul_right this hl.le
  have h6 : -vlen R < b := by
    have : -vlen R * vlen L < b * vlen L := by linarith
    exact lt_of_mul_lt_mul_right this hl.le
  by_contra hc
  push Not at hc
  have : (vlen R - b) * (vlen R + b) ≤ (vlen R - b) * repsilon := mul_le_mul_of_nonneg_left hc (by linarith)
  nlinarith

/-- an oblique view -/
example : ClearOf (⟨0, 0, 0⟩ : V3 ℝ) ⟨1, 0, 0⟩ ⟨2, 3, 5⟩ := by
  apply clearOf_aside
  have h1 : vlen ((⟨0, 0, 0⟩ : V3 ℝ).sub ⟨2, 3, 5⟩) ≤ 10 := by
    unfold vlen; rw [Real.sqrt_le_left (by norm_num)]; simp [rdot]; norm_num
  have h2 := vlen_nonneg ((⟨0, 0, 0⟩ : V3 ℝ).sub ⟨2, 3, 5⟩)
  have h3 : repsilon ≤ 1 / 100 := by unfold repsilon; norm_num
  have h0 : (0 : ℝ) < repsilon := by unfold repsilon; positivity
  simp only [rdot, cross_x, cross_y, cross_z, sub_x, sub_y, sub_z]
  nlinarith

/-- stations in line with the edge, on either side -/
example : ClearOf (⟨0, 0, 0⟩ : V3 ℝ) ⟨1, 0, 0⟩ ⟨-1, 0, 0⟩ := by
  refine .inr (.inl ⟨1, one_pos, ?_, ?_⟩)
  · refine V3.ext' ?_ ?_ ?_ <;> simp
  · simp [vlen, rdot, repsilon]; norm_num
example : ClearOf (⟨0, 0, 0⟩ : V3 ℝ) ⟨1, 0, 0⟩ ⟨2, 0, 0⟩ := by
  refine .inr (.inr ⟨1, one_pos, ?_, ?_⟩)
  · refine V3.ext' ?_ ?_ ?_ <;> simp; norm_num
  · simp [vlen, rdot, repsilon]; norm_num

end
end Geec
