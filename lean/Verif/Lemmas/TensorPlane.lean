import Verif.Props.Tensor
/-
Stations in the plane of a face, outside the face.
-/
namespace Geec
open Arith MeasureTheory
noncomputable section

/-- nearest number of the unit interval -/
def clamp (t : ℝ) : ℝ := max 0 (min 1 t)

theorem clamp_mem (t : ℝ) : clamp t ∈ Set.Icc (0 : ℝ) 1 := ⟨le_max_left _ _, max_le zero_le_one (min_le_left _ _)⟩

theorem clamp_eq {t : ℝ} (h : t ∈ Set.Icc (0 : ℝ) 1) : clamp t = t := by
  unfold clamp; rw [min_eq_right h.2, max_eq_right h.1]

theorem continuous_clamp : Continuous clamp := by unfold clamp; fun_prop

theorem continuous_integral1 {F : ℝ → ℝ → ℝ} (hF : Continuous (fun z : ℝ × ℝ => F z.1 (clamp z.2))) : Continuous (fun x => ∫ t in (0 : ℝ)..1, F x t) := by
  have h := intervalIntegral.continuous_parametric_intervalIntegral_of_continuous' (μ := volume) (f := fun x t => F x (clamp t)) hF 0 1
  refine h.congr fun x => intervalIntegral.integral_congr fun t ht => ?_
  rw [Set.uIcc_of_le zero_le_one] at ht
  simp only [clamp_eq ht]

theorem continuous_integral2 {F : ℝ → ℝ → ℝ → ℝ} (hF : Continuous (fun z : ℝ × ℝ × ℝ => F z.1 (clamp z.2.1) (clamp z.2.2))) :
    Continuous (fun x => ∫ t in (0 : ℝ)..1, ∫ v in (0 : ℝ)..1, F x t v) := by
  apply continuous_integral1 (F := fun x t => ∫ v in (0 : ℝ)..1, F x t v)
  have h := intervalIntegral.continuous_parametric_intervalIntegral_of_continuous' (μ := volume)
    (f := fun (z : ℝ × ℝ) v => F z.1 (clamp z.2) (clamp v)) (by exact hF.comp (by fun_prop : Continuous fun z : (ℝ × ℝ) × ℝ => (z.1.1, z.1.2, z.2))) 0 1
  refine h.congr fun x => intervalIntegral.integral_congr fun t ht => ?_
  rw [Set.uIcc_of_le zero_le_one] at ht
  simp only [clamp_eq ht]

section
variable {n a b c s d : V3 ℝ}

/-- the point of the triangle seen from the moving station -/
def movePt (a b c s d : V3 ℝ) (x t v : ℝ) : V3 ℝ :=
  triPt (a.sub (s.add (V3.smul x d))) (b.sub (s.add (V3.smul x d))) (c.sub (s.add (V3.smul x d))) t v

theorem continuous_movePt_len : Continuous (fun z : ℝ × ℝ × ℝ => vlen (movePt a b c s d z.1 (clamp z.2.1) (clamp z.2.2))) := by
  have := continuous_clamp
  apply continuous_vlen <;> simp only [movePt, triPt, add_x, add_y, add_z, smul_x, smul_y, smul_z, sub_x, sub_y, sub_z] <;> fun_prop

/-- off the triangle -/
def OffTriangle (a b c s : V3 ℝ) : Prop := ∀ t ∈ Set.Icc (0 : ℝ) 1, ∀ v ∈ Set.Icc (0 : ℝ) 1, triPt (a.sub s) (b.sub s) (c.sub s) t v ≠ V3.zeros

theorem movePt_ne (hn : IsNormal n a b c) (hh : rdot n (a.sub s) = 0) (hd : rdot n d ≠ 0) (ho : OffTriangle a b c s) (x t v : ℝ) :
    vlen (movePt a b c s d x (clamp t) (clamp v)) ≠ 0 := by
  apply ne_of_gt
  apply vlen_pos
  by_cases hx : x = 0
  · subst hx
    have : s.add (V3.smul 0 d) = s := by refine V3.ext' ?_ ?_ ?_ <;> simp
    unfold movePt
    rw [this]
    exact ho _ (clamp_mem t) _ (clamp_mem v)
  · intro h0
    have h1 : rdot n (movePt a b c s d x (clamp t) (clamp v)) = -(x * rdot n d) := by
      have o1 := hn.ortho1
      have o2 := hn.ortho2
      unfold movePt triPt
      simp only [rdot, add_x, add_y, add_z, smul_x, smul_y, smul_z, sub_x, sub_y, sub_z] at hh o1 o2 ⊢
      linear_combination hh + (clamp v * (1 - clamp t)) * o1 + (clamp v * clamp t) * o2
    rw [h0, rdot_zeros] at h1
    have := mul_ne_zero hx hd
    apply this
    linarith

/-- the surface integral is continuous along a path through the plane -/
theorem continuous_faceW (hn : IsNormal n a b c) (hh : rdot n (a.sub s) = 0) (hd : rdot n d ≠ 0) (ho : OffTriangle a b c s) (e : V3 ℝ) :
    Continuous (fun x => faceW (a.sub (s.add (V3.smul x d))) (b.sub (s.add (V3.smul x d))) (c.sub (s.add (V3.smul x d))) e) := by
  have := continuous_clamp
  unfold faceW
  apply continuous_integral2 (F := fun x t v => v * (rdot (movePt a b c s d x t v) e / vlen (movePt a b c s d x t v) ^ 3))
  refine Continuous.mul (by fun_prop) (Continuous.div ?_ (continuous_movePt_len.pow 3) (fun z => pow_ne_zero 3 (movePt_ne hn hh hd ho _ _ _)))
  simp only [rdot, movePt, triPt, add_x, add_y, add_z, smul_x, smul_y, smul_z, sub_x, sub_y, sub_z]
  fun_prop

theorem continuous_angleInt (hn : IsNormal n a b c) (hh : rdot n (a.sub s) = 0) (hd : rdot n d ≠ 0) (ho : OffTriangle a b c s) :
    Continuous (fun x => ∫ t in (0 : ℝ)..1, ∫ v in (0 : ℝ)..1, v / vlen (movePt a b c s d x t v) ^ 3) := by
  have := continuous_clamp
  apply continuous_integral2 (F := fun x t v => v / vlen (movePt a b c s d x t v) ^ 3)
  exact Continuous.div (by fun_prop) (continuous_movePt_len.pow 3) (fun z => pow_ne_zero 3 (movePt_ne hn hh hd ho _ _ _))

/-- the line integrals are continuous along a path through the plane -/
theorem continuous_lineJ {R L : V3 ℝ} (h : ∀ x, ∀ v ∈ Set.Icc (0 : ℝ) 1, (R.sub (V3.smul x d)).add (V3.smul v L) ≠ V3.zeros) :
    Continuous (fun x => lineJ (R.sub (V3.smul x d)) L) := by
  have := continuous_clamp
  unfold lineJ
  apply continuous_integral1 (F := fun x v => 1 / vlen ((R.sub (V3.smul x d)).add (V3.smul v L)))
  refine Continuous.div (by fun_prop) ?_ (fun z => (vlen_pos (h _ _ (clamp_mem _))).ne')
  apply continuous_vlen <;> simp only [add_x, add_y, add_z, smul_x, smul_y, smul_z, sub_x, sub_y, sub_z] <;> fun_prop

theorem continuous_lineJ_side (hn : IsNormal n a b c) (hh : rdot n (a.sub s) = 0) (hd : rdot n d ≠ 0) (ho : OffTriangle a b c s)
    {p q : V3 ℝ} (hp : p = a ∧ q = b ∨ p = b ∧ q = c ∨ p = c ∧ q = a) :
    Continuous (fun x => lineJ (p.sub (s.add (V3.smul x d))) (q.sub p)) := by
  have e : ∀ x, p.sub (s.add (V3.smul x d)) = (p.sub s).sub (V3.smul x d) := by
    intro x; refine V3.ext' ?_ ?_ ?_ <;> simp <;> ring
  simp only [e]
  apply continuous_lineJ
  intro x v hv
  have key : ∃ t w, ((p.sub s).sub (V3.smul x d)).add (V3.smul v (q.sub p)) = movePt a b c s d x (clamp t) (clamp w) := by
    rcases hp with ⟨rfl, rfl⟩ | ⟨rfl, rfl⟩ | ⟨rfl, rfl⟩
    · refine ⟨0, v, ?_⟩
      rw [clamp_eq hv, clamp_eq ⟨le_refl _, zero_le_one⟩]
      unfold movePt triPt
      refine V3.ext' ?_ ?_ ?_ <;> simp <;> ring
    · refine ⟨v, 1, ?_⟩
      rw [clamp_eq hv, clamp_eq ⟨zero_le_one, le_refl _⟩]
      unfold movePt triPt
      refine V3.ext' ?_ ?_ ?_ <;> simp <;> ring
    · refine ⟨1, 1 - v, ?_⟩
      rw [clamp_eq ⟨zero_le_one, le_refl _⟩, clamp_eq (t := 1 - v) ⟨by linarith [hv.2], by linarith [hv.1]⟩]
      unfold movePt triPt
      refine V3.ext' ?_ ?_ ?_ <;> simp <;> ring
  obtain ⟨t, w, e⟩ := key
  rw [e]
  intro h0
  apply movePt_ne hn hh hd ho x t w
  rw [h0, vlen_zeros]

/-- in the plane of the triangle, outside it, the surface integral is given by the line integrals -/
theorem faceW_plane (hn : IsNormal n a b c) (hh : rdot n (a.sub s) = 0) (ho : OffTriangle a b c s) (e : V3 ℝ) :
    vlen (cross (b.sub a) (c.sub a)) * faceW (a.sub s) (b.sub s) (c.sub s) e = rdot (cross n (loopJ a b c s)) e := by
  have hd : rdot n n ≠ 0 := by rw [hn.unit]; exact one_ne_zero
  have hW := continuous_faceW hn hh hd ho e
  have hI := continuous_angleInt hn hh hd ho
  have hJ1 := continuous_lineJ_side hn hh hd ho (.inl ⟨rfl, rfl⟩)
  have hJ2 := continuous_lineJ_side hn hh hd ho (.inr (.inl ⟨rfl, rfl⟩))
  have hJ3 := continuous_lineJ_side hn hh hd ho (.inr (.inr ⟨rfl, rfl⟩))
  let A := vlen (cross (b.sub a) (c.sub a))
  let f : ℝ → ℝ := fun x => A * faceW (a.sub (s.add (V3.smul x n))) (b.sub (s.add (V3.smul x n))) (c.sub (s.add (V3.smul x n))) e
  let g : ℝ → ℝ := fun x => (A * (-x) * ∫ t in (0 : ℝ)..1, ∫ v in (0 : ℝ)..1, v / vlen (movePt a b c s n x t v) ^ 3) * rdot n e +
    rdot (cross n (loopJ a b c (s.add (V3.smul x n)))) e
  have hf : Continuous f := continuous_const.mul hW
  have hg : Continuous g := by
    apply Continuous.add
    · exact ((continuous_const.mul continuous_neg).mul hI).mul continuous_const
    · simp only [loopJ, rdot, cross_x, cross_y, cross_z, add_x, add_y, add_z, smul_x, smul_y, smul_z] at hJ1 hJ2 hJ3 ⊢
      fun_prop
  have hfg : ∀ x ∈ ({0}ᶜ : Set ℝ), f x = g x := by
    intro x hx
    have hx : x ≠ 0 := hx
    have hhx : rdot n (a.sub (s.add (V3.smul x n))) = -x := by rw [height_path, hh, hn.unit]; ring
    have hne : rdot n (a.sub (s.add (V3.smul x n))) ≠ 0 := by rw [hhx]; exact neg_ne_zero.mpr hx
    have h1 := faceW_normal_form hn hne e
    rw [solidAngle_polar hn hne, hn.det, hhx] at h1
    exact h1
  have := (hf.tendsto 0).mono_left (nhdsWithin_le_nhds (s := {0}ᶜ))
  have h2 := (hg.tendsto 0).mono_left (nhdsWithin_le_nhds (s := {0}ᶜ))
  have heq := tendsto_nhds_unique (this.congr' (by filter_upwards [self_mem_nhdsWithin] with x hx using hfg x hx)) h2
  have z : s.add (V3.smul 0 n) = s := by refine V3.ext' ?_ ?_ ?_ <;> simp
  simp only [f, g, z] at heq
  rw [show vlen (cross (b.sub a) (c.sub a)) = A from rfl, heq]
  ring

end

/-- the slope of the field of a face, in its plane -/
theorem faceShare_plane {f : Face ℝ} (hn : IsNormal f.un f.pa f.pb f.pc) {s : V3 ℝ} (hh : rdot f.un (f.pa.sub s) = 0)
    (ho : OffTriangle f.pa f.pb f.pc s) (e d : V3 ℝ) :
    HasDerivAt (fun x => faceShare f (s.add (V3.smul x d)) e) (faceSlope f s e d) 0 := by
  have hs : faceSlope f s e d = -(rdot f.un d * (vlen (cross (f.pb.sub f.pa) (f.pc.sub f.pa)) * faceW (f.pa.sub s) (f.pb.sub s) (f.pc.sub s) e)) := by
    unfold faceSlope; rw [hh]; ring
  rw [hs]
  unfold faceShare
  simp only [hn.det, height_path, hh]
  by_cases hd : rdot f.un d = 0
  · simp only [hd, mul_zero, sub_zero, zero_mul, neg_zero]
    exact hasDerivAt_const 0 0
  · have hW := continuous_faceW hn hh hd ho e
    have key : HasDerivAt (fun x => x * faceW (f.pa.sub (s.add (V3.smul x d))) (f.pb.sub (s.add (V3.smul x d))) (f.pc.sub (s.add (V3.smul x d))) e)
        (faceW (f.pa.sub (s.add (V3.smul 0 d))) (f.pb.sub (s.add (V3.smul 0 d))) (f.pc.sub (s.add (V3.smul 0 d))) e) 0 := by
      rw [hasDerivAt_iff_tendsto_slope]
      refine ((hW.tendsto 0).mono_left nhdsWithin_le_nhds).congr' ?_
      filter_upwards [self_mem_nhdsWithin] with x hx
      have hx : x ≠ 0 := hx
      rw [slope_def_field]
      field_simp
      ring
    have z : s.add (V3.smul 0 d) = s := by refine V3.ext' ?_ ?_ ?_ <;> simp
    rw [z] at key
    refine ((key.const_mul (-(vlen (cross (f.pb.sub f.pa) (f.pc.sub f.pa)) * rdot f.un d))).congr_deriv (by ring)).congr_of_eventuallyEq ?_
    refine Filter.Eventually.of_forall fun x => ?_
    ring

end
end Geec
