import Verif.Props.ThinTube
import Mathlib.Analysis.Complex.ExponentialBounds
/-
C72: how far the field can be from Newton's law at stations that are not in regular position.
-/
namespace Geec
open Arith MeasureTheory
noncomputable section

/-- The station is farther than `eps` from the corners, on none of the surfaces `|a-s| + (a-s)·u = eps` of the edges, and the
distance to a corner plus the length of an edge at the corner is at most `D`. -/
def Hull.Ordinary (h : Hull ℝ) (s : V3 ℝ) (D : ℝ) : Prop :=
  ∀ t ∈ h.simplices, ∀ i j, Corner t i → Corner t j → i ≠ j →
    repsilon < vlen ((h.pt i).sub s) ∧ vlen ((h.pt i).sub s) + vlen ((h.pt j).sub (h.pt i)) ≤ D ∧
    vlen ((h.pt i).sub s) + rdot ((h.pt i).sub s) ((h.pt j).sub (h.pt i)) / vlen ((h.pt j).sub (h.pt i)) ≠ repsilon

/-- bound of the error from one edge, in units of length -/
def tubeError (D : ℝ) : ℝ := Real.sqrt (2 * repsilon * D) * (Real.log (2 * D / repsilon) + 2)

theorem repsilon_pos : (0 : ℝ) < repsilon := by unfold repsilon; positivity

theorem x_log_le {x y A : ℝ} (hx : 0 < x) (hxy : x ≤ y) (hA : y ≤ A) : x * Real.log (A / x) ≤ y * (Real.log (A / y) + 1) := by
  have hy := hx.trans_le hxy
  have hA' := hy.trans_le hA
  have h1 : Real.log (A / x) = Real.log (A / y) + Real.log (y / x) := by
    rw [← Real.log_mul (by positivity) (by positivity)]; congr 1; field_simp
  have h2 : Real.log (y / x) ≤ y / x - 1 := Real.log_le_sub_one_of_pos (by positivity)
  have h3 : 0 ≤ Real.log (A / y) := Real.log_nonneg (by rw [le_div_iff₀ hy]; linarith)
  have h4 : x * (y / x - 1) = y - x := by field_simp
  have h5 := mul_le_mul_of_nonneg_left h2 hx.le
  have h6 := mul_le_mul_of_nonneg_right hxy h3
  rw [h1]
  nlinarith

theorem tubeError_nonneg {D : ℝ} (hD : repsilon ≤ D) : 0 ≤ tubeError D := by
  have := repsilon_pos
  unfold tubeError
  apply mul_nonneg (Real.sqrt_nonneg _)
  have : 0 ≤ Real.log (2 * D / repsilon) := Real.log_nonneg (by rw [le_div_iff₀ this]; linarith)
  linarith

theorem vlen_add_le (a b : V3 ℝ) : vlen (a.add b) ≤ vlen a + vlen b := by
  have h1 := (le_abs_self _).trans (abs_rdot_le a b)
  have e1 := vlen_sq a
  have e2 := vlen_sq b
  have e3 := vlen_sq (a.add b)
  have e4 : rdot (a.add b) (a.add b) = rdot a a + 2 * rdot a b + rdot b b := by simp [rdot]; ring
  have p1 := vlen_nonneg a
  have p2 := vlen_nonneg b
  apply le_of_sq_le_sq _ (by positivity)
  nlinarith

/-- The error of the value of one edge, multiplied with the distance of the station from a plane through the edge. -/
theorem edge_error {e : Edge ℝ} (he : e.Proper) {obs : V3 ℝ} {gr : Bool} {v : V3 ℝ × Option (M3 ℝ)} (hv : edgeIntegral e obs gr = .ok v)
    {n : V3 ℝ} (hn : rdot n n = 1) (hnL : rdot n (e.fin.sub e.start) = 0) (hn0 : rdot n (e.start.sub obs) ≠ 0) {D : ℝ}
    (hr : repsilon < vlen (e.start.sub obs)) (hD : vlen (e.start.sub obs) + vlen (e.fin.sub e.start) ≤ D)
    (hc : vlen (e.start.sub obs) + rdot (e.start.sub obs) (e.fin.sub e.start) / vlen (e.fin.sub e.start) ≠ repsilon) :
    |rdot n (e.start.sub obs)| * vlen (v.1.sub (V3.smul (lineJ (e.start.sub obs) (e.fin.sub e.start)) (e.fin.sub e.start))) ≤ tubeError D := by
  have heps := repsilon_pos
  have hL : e.fin.sub e.start ≠ V3.zeros := sub_ne_zeros he.ne
  have hl := vlen_pos hL
  have hx : cross (e.start.sub obs) (e.fin.sub e.start) ≠ V3.zeros := by
    intro h0
    -- a vector along the edge is orthogonal to n
    have h1 : rdot (cross n (e.fin.sub e.start)) (cross (e.start.sub obs) (e.fin.sub e.start)) = 0 := by rw [h0, rdot_zeros]
    rw [lagrange, hnL, zero_mul, sub_zero] at h1
    exact hn0 ((mul_eq_zero.mp h1).resolve_right (rdot_self_pos hL).ne')
  rcases lt_or_gt_of_ne hc with hc | hc
  · rw [← he.vector] at hx hc
    obtain ⟨d, hd⟩ := edgeIntegral_turned he gr hx hc hr
    rw [hv] at hd
    cases hd
    rw [he.vector] at hx hc ⊢
    rw [lineJ_off hx]
    set R := e.start.sub obs
    set L := e.fin.sub e.start
    set r := vlen R with hrdef
    set l := vlen L with hldef
    set b := rdot R L / l with hb
    set H := |rdot n R| with hH
    have hHpos : 0 < H := abs_pos.mpr hn0
    have hbl : b * l = rdot R L := by rw [hb]; field_simp
    have hr2 : r * r = rdot R R := vlen_sq R
    have hl2 : l * l = rdot L L := vlen_sq L
    have hcpos : 0 < r + b := by
      have h1 := (abs_lt.mp (cs_strict hx)).1
      have : r + b = (r * l + rdot R L) / l := by rw [hb]; field_simp
      rw [this]; exact div_pos (by linarith) hl
    have hb1 : b ≤ r := by
      have h1 := (abs_lt.mp (cs_strict hx)).2
      rw [hb, div_le_iff₀ hl]; exact h1.le
    -- distance from the line
    have hdist : H ^ 2 ≤ (r + b) * (r - b) := by
      have h1 : 0 ≤ rdot ((R.sub (V3.smul (b / l) L)).sub (V3.smul (rdot n R) n)) ((R.sub (V3.smul (b / l) L)).sub (V3.smul (rdot n R) n)) := rdot_self_nonneg _
      have h2 : rdot ((R.sub (V3.smul (b / l) L)).sub (V3.smul (rdot n R) n)) ((R.sub (V3.smul (b / l) L)).sub (V3.smul (rdot n R) n)) =
          rdot R R - 2 * (b / l) * rdot R L + (b / l) ^ 2 * rdot L L - 2 * rdot n R * rdot n R + (rdot n R) ^ 2 * rdot n n + 2 * (b / l) * rdot n R * rdot n L := by
        simp [rdot]; ring
      rw [h2, hn, hnL, ← hbl, ← hl2, ← hr2] at h1
      have h3 : r * r - 2 * (b / l) * (b * l) + (b / l) ^ 2 * (l * l) = r * r - b * b := by field_simp; ring
      have h4 : H ^ 2 = (rdot n R) ^ 2 := by rw [hH, sq_abs]
      nlinarith
    have hrpos : 0 < r := heps.trans hr
    have hcp' : 0 < r - b := by linarith
    have hDpos : 0 < D := by linarith
    set T := Real.log ((vlen (R.add L) + l + b) / (r + b)) with hT
    set C := Real.log ((vlen (R.sub L) + l - b) / (r - b)) with hC
    have hT0 : 0 ≤ T := by
      apply Real.log_nonneg
      rw [le_div_iff₀ hcpos, one_mul]
      have := vlen_add_le (R.add L) L.neg
      rw [vlen_neg, show (R.add L).add L.neg = R by refine V3.ext' ?_ ?_ ?_ <;> simp] at this
      linarith
    have hC0 : 0 ≤ C := by
      apply Real.log_nonneg
      rw [le_div_iff₀ hcp', one_mul]
      have := vlen_add_le (R.sub L) L
      rw [show (R.sub L).add L = R by refine V3.ext' ?_ ?_ ?_ <;> simp] at this
      linarith
    have hN1 : vlen (R.add L) + l + b ≤ 2 * D := by
      have := vlen_add_le R L
      linarith
    have hN2 : vlen (R.sub L) + l - b ≤ 2 * D := by
      have := vlen_add_le R L.neg
      rw [vlen_neg, show R.add L.neg = R.sub L by refine V3.ext' ?_ ?_ ?_ <;> simp <;> ring] at this
      linarith
    have hP1 : 0 < vlen (R.add L) + l + b := by
      by_contra h
      have := vlen_add_le (R.add L) L.neg
      rw [vlen_neg, show (R.add L).add L.neg = R by refine V3.ext' ?_ ?_ ?_ <;> simp] at this
      linarith
    have hP2 : 0 < vlen (R.sub L) + l - b := by
      have := vlen_nonneg (R.sub L)
      linarith
    have hsum : T + C ≤ 2 * Real.log (2 * D / H) := by
      rw [hT, hC, ← Real.log_mul (by positivity) (by positivity), show (2 : ℝ) * Real.log (2 * D / H) = Real.log ((2 * D / H) ^ 2) by rw [Real.log_pow]; norm_num]
      apply Real.log_le_log (by positivity)
      rw [div_mul_div_comm, div_pow]
      apply div_le_div₀ (by positivity) _ (by positivity) hdist
      rw [pow_two]
      exact mul_le_mul hN1 hN2 hP2.le (by positivity)
    -- the length of the error
    have herr : vlen ((V3.smul (-(C / l)) L).sub (V3.smul (T / l) L)) = T + C := by
      rw [show (V3.smul (-(C / l)) L).sub (V3.smul (T / l) L) = V3.smul (-((T + C) / l)) L by refine V3.ext' ?_ ?_ ?_ <;> simp <;> ring,
        vlen_smul, abs_neg, abs_of_nonneg (by positivity)]
      show (T + C) / l * l = _
      field_simp
    show H * vlen ((V3.smul (-(C / l)) L).sub (V3.smul (T / l) L)) ≤ _
    rw [herr]
    have hy : H ≤ Real.sqrt (2 * repsilon * D) := by
      apply Real.le_sqrt_of_sq_le
      have h1 : r - b ≤ 2 * r := by linarith
      have h2 : (r + b) * (r - b) ≤ repsilon * (2 * r) := mul_le_mul hc.le h1 hcp'.le heps.le
      nlinarith
    have hyA : Real.sqrt (2 * repsilon * D) ≤ 2 * D := by
      apply Real.sqrt_le_iff.mpr ⟨by positivity, _⟩
      nlinarith
    have hypos : 0 < Real.sqrt (2 * repsilon * D) := by positivity
    have hfin : 2 * Real.log (2 * D / Real.sqrt (2 * repsilon * D)) = Real.log (2 * D / repsilon) := by
      rw [show (2 : ℝ) * Real.log (2 * D / Real.sqrt (2 * repsilon * D)) = Real.log ((2 * D / Real.sqrt (2 * repsilon * D)) ^ 2) by rw [Real.log_pow]; norm_num,
        div_pow, Real.sq_sqrt (by positivity)]
      congr 1
      field_simp
    have hmain := x_log_le hHpos hy hyA
    unfold tubeError
    rw [← hfin]
    nlinarith [mul_le_mul_of_nonneg_left hsum hHpos.le]
  · obtain ⟨d, hd⟩ := edgeIntegral_clear he (.inl ⟨hx, hc⟩) gr
    rw [hv] at hd
    cases hd
    rw [he.vector, show ∀ a : V3 ℝ, a.sub a = V3.zeros by intro a; refine V3.ext' ?_ ?_ ?_ <;> simp, vlen_zeros, mul_zero]
    exact tubeError_nonneg (by linarith)

/-- a triangle is seen under at most half of the sphere -/
theorem solidAngle_le {n a b c s : V3 ℝ} (hn : IsNormal n a b c) : |solidAngle n a b c s| ≤ 2 * Real.pi := by
  have hpi := Real.pi_pos
  by_cases hh : rdot n (a.sub s) = 0
  · rw [solidAngle_edge_on hn hh, abs_zero]; positivity
  · rw [solidAngle_angles hn hh, abs_mul]
    have h1 : |npSign (rdot n (a.sub s))| = 1 := by
      rcases lt_or_gt_of_ne hh with h | h
      · rw [npSign_neg h]; norm_num
      · rw [npSign_pos h]; norm_num
    rw [h1, one_mul, abs_le]
    unfold sphAngle
    set A := Real.arccos (cosAngle (a.sub s) (b.sub s) (c.sub s))
    set B := Real.arccos (cosAngle (b.sub s) (c.sub s) (a.sub s))
    set C := Real.arccos (cosAngle (c.sub s) (a.sub s) (b.sub s))
    have h1 : 0 ≤ A := Real.arccos_nonneg _
    have h2 : 0 ≤ B := Real.arccos_nonneg _
    have h3 : 0 ≤ C := Real.arccos_nonneg _
    have h4 : A ≤ Real.pi := Real.arccos_le_pi _
    have h5 : B ≤ Real.pi := Real.arccos_le_pi _
    have h6 : C ≤ Real.pi := Real.arccos_le_pi _
    constructor <;> linarith

theorem vlen_cross_le {n : V3 ℝ} (hn : rdot n n = 1) (a : V3 ℝ) : vlen (cross n a) ≤ vlen a := by
  apply Real.sqrt_le_sqrt
  rw [lagrange, hn, rdot_comm a n]
  nlinarith [mul_self_nonneg (rdot n a)]

theorem ordinary_eps {h : Hull ℝ} (hh : h.IsHull) {inHull : V3 ℝ → Bool} {p : Poly ℝ} (hp : mkPoly h inHull = .ok p)
    {k : Nat} {f : Face ℝ} (hf : p.faces[k]? = some f) {s : V3 ℝ} {D : ℝ} (hs : h.Ordinary s D) : repsilon ≤ D := by
  obtain ⟨t, ht, a, b, c, e0, e1, e2, hE, -⟩ := edges_of_hull hh hp hf
  have hE0 : p.edgeAt k 0 = some e0 := by unfold Poly.edgeAt; rw [hf]; show f.edges[0]? = _; rw [hE]; rfl
  obtain ⟨t1, ht1, ⟨x, hx, hxs⟩, y, hy, hyf⟩ := edge_start_corner hh hp hE0
  have hxy : x ≠ y := by rintro rfl; rw [← hyf] at hxs; exact (edge_proper hh hp hE0).ne hxs
  obtain ⟨q1, q2, -⟩ := hs t1 (List.mem_of_getElem? ht1) x y hx hy hxy
  have := vlen_nonneg ((h.pt y).sub (h.pt x))
  linarith

/-- the error of the field of one face -/
theorem face_error {h : Hull ℝ} (hh : h.IsHull) {inHull : V3 ℝ → Bool} {p : Poly ℝ} (hp : mkPoly h inHull = .ok p)
    {k : Nat} {f : Face ℝ} (hf : p.faces[k]? = some f) {s : V3 ℝ} {D : ℝ} (hs : h.Ordinary s D) (ρ Gc : ℝ) (gr : Bool) {g : V3 ℝ × M3 ℝ}
    (hg : faceValue p s ρ Gc gr k f = .ok g) (e : V3 ℝ) :
    |rdot g.1 e - 100000 * Gc * ρ * faceShare f s e| ≤ |100000 * Gc * ρ| * (2 * Real.pi * repsilon + 3 * tubeError D) * vlen e := by
  have heps := repsilon_pos
  obtain ⟨t, ht, hpts, -, hn, -, -⟩ := face_facts hh hp hf
  have hht : f.height s = rdot f.un (f.pa.sub s) := rfl
  obtain ⟨t', ht', a, b, c, e0, e1, e2, hE, hperm, hpts', hh0, hh1, hh2⟩ := edges_of_hull hh hp hf
  rw [ht] at ht'
  cases ht'
  have hco : ∀ i ∈ [a, b, c], Corner t i := by
    intro i hi
    have := hperm.subset hi
    simp only [List.mem_cons, List.not_mem_nil, or_false] at this
    exact this
  have ea : f.pa = h.pt a := by unfold Face.pa; rw [hpts']; rfl
  have eb : f.pb = h.pt b := by unfold Face.pb; rw [hpts']; rfl
  have ec : f.pc = h.pt c := by unfold Face.pc; rw [hpts']; rfl
  have hD0 := ordinary_eps hh hp hf hs
  have hE0 := tubeError_nonneg hD0
  have hpi := Real.pi_pos
  have hrhs : 0 ≤ |100000 * Gc * ρ| * (2 * Real.pi * repsilon + 3 * tubeError D) * vlen e := by
    have := vlen_nonneg e
    positivity
  by_cases h0 : rdot f.un (f.pa.sub s) = 0
  · have : rdot g.1 e - 100000 * Gc * ρ * faceShare f s e = 0 := by
      unfold faceValue at hg
      split at hg
      · cases hg
      · split at hg
        · cases hg
        · next vs _ =>
          rcases vs with _ | ⟨v, vs⟩
          · cases hg
          · cases hg
            rw [Motion.faceField_fst, hht, h0, zero_mul]
            unfold faceShare
            rw [hn.det s, h0]
            simp [rdot]
    rw [this, abs_zero]
    exact hrhs
  · set H := rdot f.un (f.pa.sub s) with hH
    -- the angle
    have hw : ∃ w : ℝ × V3 ℝ, omegaValue f s gr = .ok w ∧ |H| * |w.1 + solidAngle f.un f.pa f.pb f.pc s| ≤ 2 * Real.pi * repsilon := by
      by_cases h1 : repsilon < |rdot f.un (f.pa.sub s)|
      · refine ⟨_, omegaValue_solidAngle hpts hn h1 gr, ?_⟩
        rw [neg_add_cancel, abs_zero, mul_zero]
        positivity
      · refine ⟨(zero, V3.zeros), ?_, ?_⟩
        · unfold omegaValue
          rw [if_neg]
          rw [r_lt, r_abs, r_eps, hht]
          exact h1
        · push Not at h1
          show |H| * |(0 : ℝ) + _| ≤ _
          rw [zero_add, mul_comm]
          exact mul_le_mul (solidAngle_le hn) h1 (abs_nonneg _) (by positivity)
    -- the edges
    have val : ∀ (j : Nat) (e : Edge ℝ), f.edges[j]? = some e → rdot f.un (e.start.sub s) = H → rdot f.un (e.fin.sub s) = H →
        ∀ v, edgeValue p s gr k e = .ok v →
        |H| * vlen (v.1.sub (V3.smul (lineJ (e.start.sub s) (e.fin.sub e.start)) (e.fin.sub e.start))) ≤ tubeError D := by
      intro j e he hst hfn v hv
      have hE : p.edgeAt k j = some e := by unfold Poly.edgeAt; rw [hf]; exact he
      have hL : rdot f.un (e.fin.sub e.start) = 0 := by
        rw [show e.fin.sub e.start = (e.fin.sub s).sub (e.start.sub s) by refine V3.ext' ?_ ?_ ?_ <;> simp, rdot_sub, hst, hfn, sub_self]
      obtain ⟨t1, ht1, ⟨x, hx, hxs⟩, y, hy, hyf⟩ := edge_start_corner hh hp hE
      have hpr := edge_proper hh hp hE
      have hxy : x ≠ y := by rintro rfl; rw [← hyf] at hxs; exact hpr.ne hxs
      have hq1 := hs t1 (List.mem_of_getElem? ht1) x y hx hy hxy
      have hq2 := hs t1 (List.mem_of_getElem? ht1) y x hy hx hxy.symm
      rw [← hxs, ← hyf] at hq1 hq2
      obtain ⟨i₁, j₁, f₁, e₁, htw, hf₁, hfe₁, -, hne, -, -, hes, hef, -⟩ := C25_twins hh hp hf he
      have hE₁ : p.edgeAt i₁ j₁ = some e₁ := by unfold Poly.edgeAt; rw [hf₁]; exact hfe₁
      unfold edgeValue at hv
      rw [htw] at hv
      simp only [hE₁] at hv
      split at hv
      · rcases hi : edgeIntegral e₁ s gr with z | z <;> rw [hi] at hv <;> simp only [Except.map] at hv
        · cases hv
        · cases hv
          have hpr₁ := edge_proper hh hp hE₁
          have := edge_error hpr₁ hi hn.unit (by rw [hes, hef, show e.start.sub e.fin = (e.fin.sub e.start).neg by refine V3.ext' ?_ ?_ ?_ <;> simp, rdot_neg, hL, neg_zero])
            (by rw [hes, hfn]; exact h0) (by rw [hes]; exact hq2.1) (D := D) (by rw [hes, hef]; exact hq2.2.1) (by rw [hes, hef]; exact hq2.2.2)
          rw [hes, hef, hfn] at this
          have hrev : lineJ (e.fin.sub s) (e.start.sub e.fin) = lineJ (e.start.sub s) (e.fin.sub e.start) := by
            rw [← lineJ_reverse (e.start.sub s) (e.fin.sub e.start)]
            congr 1 <;> refine V3.ext' ?_ ?_ ?_ <;> simp
          rw [hrev] at this
          convert this using 2
          rw [← vlen_neg]
          congr 1
          refine V3.ext' ?_ ?_ ?_ <;> simp [pairNeg] <;> ring
      · have := edge_error hpr hv hn.unit hL (by rw [hst]; exact h0) hq1.1 hq1.2.1 hq1.2.2
        rwa [hst] at this
    have hb0 : rdot f.un (f.pb.sub s) = H := by
      have := hn.ortho1
      rw [rdot_sub] at this
      rw [hH, rdot_sub, rdot_sub]; linarith
    have hc0 : rdot f.un (f.pc.sub s) = H := by
      have := hn.ortho2
      rw [rdot_sub] at this
      rw [hH, rdot_sub, rdot_sub]; linarith
    rw [← ea, ← eb] at hh0
    rw [← eb, ← ec] at hh1
    rw [← ec, ← ea] at hh2
    obtain ⟨w, hwo, hwb⟩ := hw
    unfold faceValue at hg
    rw [hwo, hE] at hg
    simp only [edgesValue] at hg
    rcases hv0 : edgeValue p s gr k e0 with z | v0 <;> rw [hv0] at hg <;> simp only [reduceCtorEq] at hg
    rcases hv1 : edgeValue p s gr k e1 with z | v1 <;> rw [hv1] at hg <;> simp only [reduceCtorEq] at hg
    rcases hv2 : edgeValue p s gr k e2 with z | v2 <;> rw [hv2] at hg <;> simp only [reduceCtorEq] at hg
    have q0 := val 0 e0 (by rw [hE]; rfl) (by rw [hh0.1]) (by rw [hh0.2]; exact hb0) v0 hv0
    have q1 := val 1 e1 (by rw [hE]; rfl) (by rw [hh1.1]; exact hb0) (by rw [hh1.2]; exact hc0) v1 hv1
    have q2 := val 2 e2 (by rw [hE]; rfl) (by rw [hh2.1]; exact hc0) (by rw [hh2.2]) v2 hv2
    rw [hh0.1, hh0.2] at q0
    rw [hh1.1, hh1.2] at q1
    rw [hh2.1, hh2.2] at q2
    simp only [fieldOfEdges, Except.ok.injEq, sumPqr] at hg
    rw [← hg, Motion.faceField_fst, hht]
    have hform := faceW_normal_form hn h0 e
    unfold faceShare
    rw [hn.det s]
    set J0 := V3.smul (lineJ (f.pa.sub s) (f.pb.sub f.pa)) (f.pb.sub f.pa)
    set J1 := V3.smul (lineJ (f.pb.sub s) (f.pc.sub f.pb)) (f.pc.sub f.pb)
    set J2 := V3.smul (lineJ (f.pc.sub s) (f.pa.sub f.pc)) (f.pa.sub f.pc)
    have hsh : vlen (cross (f.pb.sub f.pa) (f.pc.sub f.pa)) * H * faceW (f.pa.sub s) (f.pb.sub s) (f.pc.sub s) e =
        H * (solidAngle f.un f.pa f.pb f.pc s * rdot f.un e + rdot (cross f.un ((J0.add J1).add J2)) e) := by rw [← hform]; ring
    set X0 := v0.1.sub J0
    set X1 := v1.1.sub J1
    set X2 := v2.1.sub J2
    have hdiff : rdot (V3.smul (H * (-ρ * Gc * 100000)) ((V3.smul w.1 f.un).sub (cross f.un ((v0.1.add v1.1).add v2.1)))) e -
        100000 * Gc * ρ * (vlen (cross (f.pb.sub f.pa) (f.pc.sub f.pa)) * H * faceW (f.pa.sub s) (f.pb.sub s) (f.pc.sub s) e) =
        -(100000 * Gc * ρ) * (H * (w.1 + solidAngle f.un f.pa f.pb f.pc s) * rdot f.un e - H * rdot (cross f.un ((X0.add X1).add X2)) e) := by
      rw [hsh]
      simp only [rdot, smul_x, smul_y, smul_z, sub_x, sub_y, sub_z, cross_x, cross_y, cross_z, add_x, add_y, add_z, X0, X1, X2]
      ring
    rw [hdiff, abs_mul, abs_neg, mul_assoc |100000 * Gc * ρ|]
    apply mul_le_mul_of_nonneg_left _ (abs_nonneg _)
    have hun : vlen f.un = 1 := by unfold vlen; rw [hn.unit, Real.sqrt_one]
    have b1 : |H * (w.1 + solidAngle f.un f.pa f.pb f.pc s) * rdot f.un e| ≤ 2 * Real.pi * repsilon * vlen e := by
      rw [abs_mul, abs_mul]
      have := abs_rdot_le f.un e
      rw [hun, one_mul] at this
      exact mul_le_mul hwb this (abs_nonneg _) (by positivity)
    have b2 : |H * rdot (cross f.un ((X0.add X1).add X2)) e| ≤ 3 * tubeError D * vlen e := by
      have h1 := abs_rdot_le (cross f.un ((X0.add X1).add X2)) e
      have h2 := vlen_cross_le hn.unit ((X0.add X1).add X2)
      have h3 := (vlen_add_le (X0.add X1) X2).trans (add_le_add_left (vlen_add_le X0 X1) _)
      have hep := vlen_nonneg e
      have h4 : |H| * vlen (cross f.un ((X0.add X1).add X2)) ≤ 3 * tubeError D := by
        have := mul_le_mul_of_nonneg_left (h2.trans h3) (abs_nonneg H)
        linarith
      rw [abs_mul]
      calc |H| * |rdot (cross f.un ((X0.add X1).add X2)) e| ≤ |H| * (vlen (cross f.un ((X0.add X1).add X2)) * vlen e) := mul_le_mul_of_nonneg_left h1 (abs_nonneg _)
        _ = |H| * vlen (cross f.un ((X0.add X1).add X2)) * vlen e := by ring
        _ ≤ _ := mul_le_mul_of_nonneg_right h4 hep
    calc _ ≤ _ := abs_sub _ _
      _ ≤ 2 * Real.pi * repsilon * vlen e + 3 * tubeError D * vlen e := add_le_add b1 b2
      _ = _ := by ring

theorem facesValue_error_sum {p : Poly ℝ} {s : V3 ℝ} {ρ Gc : ℝ} {gr : Bool} {e : V3 ℝ} {K E : ℝ} (fs : List (Face ℝ)) :
    ∀ i G T v, (∀ (k : Nat) f g, fs[k]? = some f → faceValue p s ρ Gc gr (i + k) f = .ok g → |rdot g.1 e - K * faceShare f s e| ≤ E) →
      facesValue p s ρ Gc gr i fs G T = .ok v → |rdot v.1 e - (rdot G e + K * (fs.map (fun f => faceShare f s e)).sum)| ≤ fs.length * E := by
  induction fs with
  | nil => intro i G T v _ h; cases h; simp
  | cons f fs ih =>
    intro i G T v h hv
    simp only [facesValue] at hv
    split at hv
    · cases hv
    · next g t hgt =>
      have h1 := ih (i + 1) (G.add g) (T.add t) v (fun k f g hk hg => h (k + 1) f g hk (by rwa [show i + (k + 1) = i + 1 + k by omega])) hv
      have h0 := h 0 f (g, t) rfl (by rw [Nat.add_zero]; exact hgt)
      rw [rdot_comm (G.add g), rdot_add, rdot_comm e G, rdot_comm e g] at h1
      rw [List.map_cons, List.sum_cons, List.length_cons, Nat.cast_add, Nat.cast_one]
      rw [abs_le] at *
      constructor <;> linarith [h1.1, h1.2, h0.1, h0.2]

/-- **C72** How far the field is from Newton's law at any station that is farther than `eps` from the corners (and not exactly on
one of the surfaces where the code switches formulas), in particular in the thin tubes where C13 fails for single edges and
between a face plane and the slab of width `eps` where the code drops the solid angle. -/
theorem C72_error {h : Hull ℝ} (hh : h.IsHull) {inHull : V3 ℝ → Bool} {p : Poly ℝ} (hp : mkPoly h inHull = .ok p)
    {s : V3 ℝ} {D : ℝ} (hs : h.Ordinary s D) {ρ Gc : ℝ} {gr : Bool} {G : V3 ℝ} {T : M3 ℝ} (hv : Call.onNew p ⟨s, ρ, Gc, gr⟩ = .ok (G, T)) :
    vlen (G.sub (V3.smul (100000 * Gc * ρ) (attraction h.body s))) ≤
      |100000 * Gc * ρ| * h.simplices.length * (2 * Real.pi * repsilon + 3 * tubeError D) := by
  set X := G.sub (V3.smul (100000 * Gc * ρ) (attraction h.body s)) with hX
  have h2 := (newton_faces (hull_surface hh hp) s X).2
  rw [onNew_closed (wellTwinned_of_hull hh hp)] at hv
  have hb := facesValue_error_sum p.faces 0 V3.zeros M3.zeros (G, T)
    (fun k f g hk hg => face_error hh hp hk hs ρ Gc gr (by rwa [Nat.zero_add] at hg) X) hv
  have hsum : (p.faces.map (fun f => faceShare f s X)).sum = rdot (attraction h.body s) X := by
    rw [attraction_dot hh, h2, ← Fin.sum_univ_fun_getElem p.faces (fun f => faceShare f s X)]
    rfl
  have hlen : p.faces.length = h.simplices.length := (C24_counter_clockwise hh hp).1
  rw [hsum, hlen, rdot_comm V3.zeros, rdot_zeros, zero_add] at hb
  have hXX : rdot G X - 100000 * Gc * ρ * rdot (attraction h.body s) X = vlen X * vlen X := by
    rw [vlen_sq, hX]; simp only [rdot, sub_x, sub_y, sub_z, smul_x, smul_y, smul_z]; ring
  rw [show (G, T).1 = G from rfl, hXX] at hb
  rcases eq_or_lt_of_le (vlen_nonneg X) with h0 | h0
  · rw [← h0]
    rcases hz : p.faces[0]? with _ | f
    · rw [← hlen, List.length_eq_zero_iff.mpr (by simpa using hz)]; simp
    · have := tubeError_nonneg (ordinary_eps hh hp hz hs)
      have := repsilon_pos
      have := Real.pi_pos
      positivity
  · have := (le_abs_self _).trans hb
    apply le_of_mul_le_mul_right _ h0
    calc _ ≤ _ := this
      _ = _ := by ring

/-- **C72** in numbers: for a body and station within 1000 km, where coordinates are metres, the error per face is less than
4 mm of the layer constant `1e5 G ρ` (below 0.0001 mGal for rock), at every station but those excluded. -/
theorem C72_metres {h : Hull ℝ} (hh : h.IsHull) {inHull : V3 ℝ → Bool} {p : Poly ℝ} (hp : mkPoly h inHull = .ok p)
    {s : V3 ℝ} (hs : h.Ordinary s 1000000) {ρ Gc : ℝ} {gr : Bool} {G : V3 ℝ} {T : M3 ℝ} (hv : Call.onNew p ⟨s, ρ, Gc, gr⟩ = .ok (G, T)) :
    vlen (G.sub (V3.smul (100000 * Gc * ρ) (attraction h.body s))) ≤ |100000 * Gc * ρ| * h.simplices.length * (4 / 1000) := by
  refine (C72_error hh hp hs hv).trans (mul_le_mul_of_nonneg_left ?_ (by positivity))
  have heps : repsilon = 1 / 4503599627370496 := by unfold repsilon; norm_num
  have hpi := Real.pi_le_four
  have h1 : Real.sqrt (2 * repsilon * 1000000) ≤ 22 / 1000000 := by
    rw [heps]; apply Real.sqrt_le_iff.mpr; norm_num
  have h2 : Real.log (2 * 1000000 / repsilon) ≤ 51 := by
    have : (2 : ℝ) * 1000000 / repsilon ≤ 2 ^ 73 := by rw [heps]; norm_num
    calc Real.log (2 * 1000000 / repsilon) ≤ Real.log (2 ^ 73) := Real.log_le_log (by rw [heps]; norm_num) this
      _ = 73 * Real.log 2 := by rw [Real.log_pow]; norm_num
      _ ≤ 51 := by linarith [Real.log_two_lt_d9]
  have h3 : tubeError 1000000 ≤ 22 / 1000000 * 53 := by
    unfold tubeError
    apply mul_le_mul h1 (by linarith) _ (by norm_num)
    have : 0 ≤ Real.log (2 * 1000000 / repsilon) := Real.log_nonneg (by rw [heps]; norm_num)
    linarith
  have h4 : 2 * Real.pi * repsilon ≤ 8 * repsilon := by have := repsilon_pos; nlinarith
  rw [heps] at h4 ⊢
  linarith

/-- a station clear of an edge is on none of the excluded surfaces -/
theorem ClearOf.ne_eps {a b s : V3 ℝ} (hab : a ≠ b) (h : ClearOf a b s) :
    vlen (a.sub s) + rdot (a.sub s) (b.sub a) / vlen (b.sub a) ≠ repsilon := by
  have hl := vlen_pos (sub_ne_zeros hab)
  have hl2 := vlen_sq (b.sub a)
  rcases h with ⟨-, h⟩ | ⟨c, hc, h1, h2⟩ | ⟨c, hc, h1, h2⟩
  · exact h.ne'
  · rw [h1, smul_rdot, vlen_smul, abs_of_pos hc, ← hl2, mul_div_assoc, mul_div_cancel_right₀ _ hl.ne']
    rw [h1, vlen_smul, abs_of_pos hc] at h2
    intro h; linarith
  · have : a.sub s = V3.smul (-(1 + c)) (b.sub a) := by
      have hx := congrArg V3.x h1
      have hy := congrArg V3.y h1
      have hz := congrArg V3.z h1
      simp at hx hy hz
      refine V3.ext' ?_ ?_ ?_ <;> simp <;> linarith
    rw [this, smul_rdot, vlen_smul, abs_neg, abs_of_pos (by linarith), ← hl2, mul_div_assoc, mul_div_cancel_right₀ _ hl.ne']
    have := repsilon_pos
    intro h; linarith

/-- the station in the thin tube of an edge of the tetrahedron, where C13 and C64 fail, is an ordinary one -/
theorem thin_ordinary : tetra.Ordinary thinStation 1000000 := by
  have hle : ∀ a : Nat, a < 4 → 1 ≤ vlen ((tetra.pt a).sub thinStation) ∧ vlen ((tetra.pt a).sub thinStation) ≤ 100 := by
    intro a ha
    unfold vlen thinStation
    constructor
    · apply Real.le_sqrt_of_sq_le
      interval_cases a <;> simp only [rdot, sub_x, sub_y, sub_z, tetra_pt0, tetra_pt1, tetra_pt2, tetra_pt3] <;> norm_num
    · apply Real.sqrt_le_iff.mpr
      interval_cases a <;> simp only [rdot, sub_x, sub_y, sub_z, tetra_pt0, tetra_pt1, tetra_pt2, tetra_pt3] <;> norm_num
  have hll : ∀ a b : Nat, a < 4 → b < 4 → vlen ((tetra.pt b).sub (tetra.pt a)) ≤ 100 := by
    intro a b ha hb
    unfold vlen
    apply Real.sqrt_le_iff.mpr
    interval_cases a <;> interval_cases b <;> simp only [rdot, sub_x, sub_y, sub_z, tetra_pt0, tetra_pt1, tetra_pt2, tetra_pt3] <;> norm_num
  intro t ht i j hi hj hne
  have hi4 : i < 4 := tetra_isHull.cornerIndex t ht i hi
  have hj4 : j < 4 := tetra_isHull.cornerIndex t ht j hj
  have hp1 := hle i hi4
  have hp2 := hll i j hi4 hj4
  have heps : repsilon = 1 / 4503599627370496 := by unfold repsilon; norm_num
  refine ⟨by rw [heps]; linarith, by linarith, ?_⟩
  have hpt : tetra.pt i ≠ tetra.pt j := by
    intro h
    have hx := congrArg V3.x h
    have hy := congrArg V3.y h
    have hz := congrArg V3.z h
    revert hx hy hz
    interval_cases i <;> interval_cases j <;> simp [tetra_pt0, tetra_pt1, tetra_pt2, tetra_pt3] at hne ⊢
  by_cases h10 : i = 1 ∧ j = 0
  · obtain ⟨rfl, rfl⟩ := h10
    obtain ⟨d1, d2⟩ := thin_dist
    obtain ⟨k1, k2, k3⟩ := thin_dir
    rw [k1, k2, k3]
    intro h; linarith
  by_cases h01 : i = 0 ∧ j = 1
  · obtain ⟨rfl, rfl⟩ := h01
    have : rdot ((tetra.pt 0).sub thinStation) ((tetra.pt 1).sub (tetra.pt 0)) / vlen ((tetra.pt 1).sub (tetra.pt 0)) = 2 := by
      rw [tetra_pt0, tetra_pt1]; unfold vlen thinStation; simp [rdot]
    rw [this, heps]
    intro h; linarith
  exact (thin_clear i j hi4 hj4 hne h01 h10).ne_eps hpt

/-- there the field is still Newton's to within 16 mm of the layer constant -/
example : ∃ (p : Poly ℝ) (G : V3 ℝ) (T : M3 ℝ), mkPoly tetra (fun _ => true) = .ok p ∧ Call.onNew p ⟨thinStation, 1, 1, false⟩ = .ok (G, T) ∧
    vlen (G.sub (V3.smul (100000 * 1 * 1) (attraction tetra.body thinStation))) ≤ |100000 * 1 * 1| * 4 * (4 / 1000) := by
  obtain ⟨p, hp⟩ := hull_mkPoly_ok tetra_isHull (fun _ => true)
  obtain ⟨G, T, hv⟩ := C22_total tetra_isHull hp (obs := thinStation) (fun t ht i hi h => by
    have hi4 : i < 4 := tetra_isHull.cornerIndex t ht i hi
    have hx := congrArg V3.x h
    have hy := congrArg V3.y h
    revert hx hy
    unfold thinStation
    interval_cases i <;> simp [tetra_pt0, tetra_pt1, tetra_pt2, tetra_pt3]) 1 1
  exact ⟨p, G, T, hp, hv, C72_metres tetra_isHull hp thin_ordinary hv⟩

end
end Geec
