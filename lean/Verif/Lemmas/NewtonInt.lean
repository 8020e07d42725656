import Verif.Lemmas.Decompose
import Verif.Lemmas.FaceInt
import Verif.Props.SolidAngle
import Mathlib.MeasureTheory.Integral.Bochner.Set
import Mathlib.LinearAlgebra.Dimension.Finrank
/-
Volume integrals over a convex body as sums of integrals over the cones of its boundary triangles.
-/
namespace Geec
open Arith MeasureTheory
noncomputable section

theorem plane_null {n : V3 ℝ} (hn : n ≠ V3.zeros) (c : ℝ) : ∀ᵐ q : P3, rdot n (P3.toV q) ≠ c := by
  let W : AffineSubspace ℝ P3 :=
    { carrier := {q | rdot n (P3.toV q) = c}
      smul_vsub_vadd_mem' := by
        intro t p1 p2 p3 h1 h2 h3
        simp only [Set.mem_ofPred_eq, vsub_eq_sub, vadd_eq_add, rdot, P3.toV, Prod.fst_add, Prod.snd_add, Prod.smul_fst,
          Prod.smul_snd, Prod.fst_sub, Prod.snd_sub, smul_eq_mul] at *
        linear_combination t * h1 - t * h2 + h3 }
  have hW : W ≠ ⊤ := by
    intro h
    have hpos := rdot_self_pos hn
    have h1 : n.toP ∈ W := by rw [h]; trivial
    have h2 : (V3.smul 2 n).toP ∈ W := by rw [h]; trivial
    have h1 : rdot n n = c := h1
    have h2 : rdot n (V3.smul 2 n) = c := h2
    rw [rdot_smul] at h2
    have h3 : (V3.zeros : V3 ℝ).toP ∈ W := by rw [h]; trivial
    have h3 : rdot n V3.zeros = c := h3
    rw [rdot_zeros] at h3
    linarith
  have := Measure.addHaar_affineSubspace (volume : Measure P3) W hW
  rw [ae_iff]
  convert this using 2
  ext q
  simp only [ne_eq, not_not]
  rfl

theorem exists_orth (p q : V3 ℝ) : ∃ m : V3 ℝ, m ≠ V3.zeros ∧ rdot m p = 0 ∧ rdot m q = 0 := by
  let f : P3 →ₗ[ℝ] ℝ × ℝ :=
    { toFun := fun m => (rdot (P3.toV m) p, rdot (P3.toV m) q)
      map_add' := by intro a b; simp only [rdot, P3.toV, Prod.fst_add, Prod.snd_add, Prod.mk_add_mk]; congr 1 <;> ring
      map_smul' := by
        intro k a; simp only [rdot, P3.toV, Prod.smul_fst, Prod.smul_snd, smul_eq_mul, RingHom.id_apply, Prod.smul_mk]
        congr 1 <;> ring }
  have hk : LinearMap.ker f ≠ ⊥ := LinearMap.ker_ne_bot_of_finrank_lt (by simp)
  obtain ⟨m, hm, hm0⟩ := Submodule.exists_mem_ne_zero_of_ne_bot hk
  have hm : f m = 0 := hm
  refine ⟨P3.toV m, ?_, congrArg Prod.fst hm, congrArg Prod.snd hm⟩
  intro h
  apply hm0
  have := congrArg V3.toP h
  rw [toV_toP] at this
  rw [this]; simp [V3.toP]

theorem ae_side (a b c s : V3 ℝ) : ∀ᵐ q : P3, ∀ t : ℝ, t ≠ 0 → s.toP + t • (q - s.toP) ∈ triangle a b c →
    s.toP + t • (q - s.toP) ∈ openTriangle a b c := by
  obtain ⟨m1, hm1, h1b, h1c⟩ := exists_orth (b.sub s) (c.sub s)
  obtain ⟨m2, hm2, h2a, h2c⟩ := exists_orth (a.sub s) (c.sub s)
  obtain ⟨m3, hm3, h3a, h3b⟩ := exists_orth (a.sub s) (b.sub s)
  filter_upwards [plane_null hm1 (rdot m1 s), plane_null hm2 (rdot m2 s), plane_null hm3 (rdot m3 s)] with q k1 k2 k3 t ht hq
  obtain ⟨u, v, w, hu, hv, hw, hs, he⟩ := mem_triangle.mp hq
  have key : ∀ m : V3 ℝ, t * (rdot m (P3.toV q) - rdot m s) = u * rdot m (a.sub s) + v * rdot m (b.sub s) + w * rdot m (c.sub s) := by
    intro m
    have hu' : u = 1 - v - w := by linarith
    subst hu'
    have ex := congrArg Prod.fst he
    have ey := congrArg (fun z => z.2.1) he
    have ez := congrArg (fun z => z.2.2) he
    simp only [V3.toP, Prod.fst_add, Prod.snd_add, Prod.smul_fst, Prod.smul_snd, Prod.fst_sub, Prod.snd_sub, smul_eq_mul] at ex ey ez
    simp only [rdot, P3.toV, sub_x, sub_y, sub_z]
    linear_combination m.x * ex + m.y * ey + m.z * ez
  refine ⟨u, v, w, lt_of_le_of_ne hu ?_, lt_of_le_of_ne hv ?_, lt_of_le_of_ne hw ?_, hs, he⟩
  · rintro rfl
    have := key m1
    rw [h1b, h1c, zero_mul, mul_zero, mul_zero, add_zero, add_zero] at this
    rcases mul_eq_zero.mp this with h | h
    · exact ht h
    · exact k1 (by linarith)
  · rintro rfl
    have := key m2
    rw [h2a, h2c, zero_mul, mul_zero, mul_zero, add_zero, add_zero] at this
    rcases mul_eq_zero.mp this with h | h
    · exact ht h
    · exact k2 (by linarith)
  · rintro rfl
    have := key m3
    rw [h3a, h3b, zero_mul, mul_zero, mul_zero, add_zero, add_zero] at this
    rcases mul_eq_zero.mp this with h | h
    · exact ht h
    · exact k3 (by linarith)

theorem IsNormal.ne {n a b c : V3 ℝ} (h : IsNormal n a b c) : n ≠ V3.zeros := by
  rintro rfl; have := h.unit; rw [rdot_zeros] at this; exact zero_ne_one this

theorem ae_generic {n : ℕ} {A B C N : Fin n → V3 ℝ} (hN : ∀ k, IsNormal (N k) (A k) (B k) (C k)) (s : V3 ℝ) :
    ∀ᵐ q : P3, Generic A B C N s q := by
  have h1 : ∀ᵐ q : P3, ∀ k, rdot (N k) (P3.toV q) ≠ rdot (N k) s := ae_all_iff.mpr fun k => plane_null (hN k).ne _
  have h2 : ∀ᵐ q : P3, ∀ k, rdot (N k) (P3.toV q) ≠ rdot (N k) (A k) := ae_all_iff.mpr fun k => plane_null (hN k).ne _
  have h3 := ae_all_iff.mpr fun k => ae_side (A k) (B k) (C k) s
  filter_upwards [h1, h2, h3] with q k1 k2 k3
  exact ⟨fun k => by rw [rdot_sub]; exact sub_ne_zero.mpr (k1 k), k2, k3⟩

/-- the cone of a boundary triangle -/
def faceCone (s a b c : V3 ℝ) : Set P3 := openCone s (a.sub s) (b.sub s) (c.sub s)

/-- **Volume integrals by signed cones.** -/
theorem body_integral {P : Set P3} {n : ℕ} {A B C N : Fin n → V3 ℝ} (hS : Surface P A B C N) (s : V3 ℝ) (F : P3 → ℝ)
    (hD : ∀ k, rdot (N k) ((A k).sub s) ≠ 0 → det3 ((A k).sub s) ((B k).sub s) ((C k).sub s) ≠ 0)
    (hF : ∀ k, rdot (N k) ((A k).sub s) ≠ 0 → IntegrableOn F (faceCone s (A k) (B k) (C k))) :
    IntegrableOn F P ∧ ∫ q in P, F q = ∑ k, (SignType.sign (rdot (N k) ((A k).sub s)) : ℝ) * ∫ q in faceCone s (A k) (B k) (C k), F q := by
  classical
  have hPm : MeasurableSet P := hS.compact.isClosed.measurableSet
  have hae : P.indicator F =ᵐ[volume] fun q => ∑ k, (SignType.sign (rdot (N k) ((A k).sub s)) : ℝ) *
      (faceCone s (A k) (B k) (C k)).indicator F q := by
    filter_upwards [ae_generic hS.normal s] with q hq
    have h := indicator_cones hS hq
    have e : P.indicator F q = (if q ∈ P then (1 : ℝ) else 0) * F q := by
      by_cases hp : q ∈ P <;> simp [hp]
    rw [e, ← h, Finset.sum_mul]
    apply Finset.sum_congr rfl
    intro k _
    by_cases hp : q ∈ faceCone s (A k) (B k) (C k)
    · have hp' := hp
      unfold faceCone at hp'
      rw [Set.indicator_of_mem hp, if_pos hp']
    · have hp' := hp
      unfold faceCone at hp'
      rw [Set.indicator_of_notMem hp, if_neg hp']; simp
  have hint : ∀ k, Integrable (fun q => (SignType.sign (rdot (N k) ((A k).sub s)) : ℝ) *
      (faceCone s (A k) (B k) (C k)).indicator F q) := by
    intro k
    by_cases h0 : rdot (N k) ((A k).sub s) = 0
    · rw [h0]; simp
    · apply Integrable.const_mul
      exact (integrable_indicator_iff (measurableSet_openCone s (hD k h0))).mpr (hF k h0)
  constructor
  · rw [← integrable_indicator_iff hPm]
    exact (integrable_finsetSum _ (fun k _ => hint k)).congr hae.symm
  · rw [← integral_indicator hPm, integral_congr_ae hae, integral_finsetSum _ (fun k _ => hint k)]
    apply Finset.sum_congr rfl
    intro k _
    rw [integral_const_mul]
    by_cases h0 : rdot (N k) ((A k).sub s) = 0
    · rw [h0]; simp
    · congr 1
      exact integral_indicator (measurableSet_openCone s (hD k h0))

/-- the attraction of a unit mass at `q` on the station, in direction `e` -/
def kernelAt (s e : V3 ℝ) (q : P3) : ℝ := rdot ((P3.toV q).sub s) e / vlen ((P3.toV q).sub s) ^ 3

theorem coneMap_sub (s p1 p2 p3 : V3 ℝ) (z : P3) :
    (P3.toV (coneMap s p1 p2 p3 z)).sub s = V3.smul z.1 (triPt p1 p2 p3 z.2.1 z.2.2) := by
  unfold coneMap
  rw [toP_toV, triPt_ray_v]
  refine V3.ext' ?_ ?_ ?_ <;> simp

theorem kernel_cone (s e : V3 ℝ) {p1 p2 p3 : V3 ℝ} (hD : det3 p1 p2 p3 ≠ 0) :
    IntegrableOn (kernelAt s e) (openCone s p1 p2 p3) ∧ ∫ q in openCone s p1 p2 p3, kernelAt s e q = |det3 p1 p2 p3| * faceW p1 p2 p3 e := by
  have hz : ∀ z ∈ cube, |det3 p1 p2 p3| * (z.1 ^ 2 * z.2.2) * kernelAt s e (coneMap s p1 p2 p3 z) =
      |det3 p1 p2 p3| * (z.2.2 * (rdot (triPt p1 p2 p3 z.2.1 z.2.2) e / vlen (triPt p1 p2 p3 z.2.1 z.2.2) ^ 3)) := by
    rintro z ⟨⟨ht, -⟩, -⟩
    unfold kernelAt
    rw [coneMap_sub, smul_rdot, vlen_smul, abs_of_pos ht]
    have := triPt_len_ne hD z.2.1 z.2.2
    have := ht.ne'
    field_simp
  have hc : Continuous (fun w : ℝ × ℝ => |det3 p1 p2 p3| * (w.2 * (rdot (triPt p1 p2 p3 w.1 w.2) e / vlen (triPt p1 p2 p3 w.1 w.2) ^ 3))) :=
    continuous_const.mul (continuous_snd.mul (continuous_weight hD e))
  constructor
  · rw [cone_integrable s hD, integrableOn_congr_fun (fun z hz' => hz z hz') measurableSet_cube]
    exact integrableOn_cube (f := fun z => |det3 p1 p2 p3| * (z.2.2 * (rdot (triPt p1 p2 p3 z.2.1 z.2.2) e / vlen (triPt p1 p2 p3 z.2.1 z.2.2) ^ 3)))
      (hc.comp continuous_snd)
  · rw [cone_integral s hD, setIntegral_congr_fun measurableSet_cube (fun z hz' => hz z hz'), setIntegral_cube_snd hc]
    unfold faceW
    rw [← intervalIntegral.integral_const_mul]
    congr 1
    funext t
    rw [← intervalIntegral.integral_const_mul]

/-- **Newton's integral by faces.** -/
theorem newton_faces {P : Set P3} {n : ℕ} {A B C N : Fin n → V3 ℝ} (hS : Surface P A B C N) (s e : V3 ℝ) :
    IntegrableOn (kernelAt s e) P ∧ ∫ q in P, kernelAt s e q =
      ∑ k, det3 ((A k).sub s) ((B k).sub s) ((C k).sub s) * faceW ((A k).sub s) ((B k).sub s) ((C k).sub s) e := by
  have hdet : ∀ k, det3 ((A k).sub s) ((B k).sub s) ((C k).sub s) =
      vlen (cross ((B k).sub (A k)) ((C k).sub (A k))) * rdot (N k) ((A k).sub s) := fun k => (hS.normal k).det s
  have hD : ∀ k, rdot (N k) ((A k).sub s) ≠ 0 → det3 ((A k).sub s) ((B k).sub s) ((C k).sub s) ≠ 0 := by
    intro k hk; rw [hdet]; exact mul_ne_zero (hS.normal k).area_pos.ne' hk
  obtain ⟨h1, h2⟩ := body_integral hS s (kernelAt s e) hD (fun k hk => (kernel_cone s e (hD k hk)).1)
  refine ⟨h1, h2.trans ?_⟩
  apply Finset.sum_congr rfl
  intro k _
  by_cases h0 : rdot (N k) ((A k).sub s) = 0
  · rw [hdet, h0]; simp
  · unfold faceCone
    rw [(kernel_cone s e (hD k h0)).2, ← mul_assoc]
    congr 1
    rw [hdet, abs_mul, abs_of_pos (hS.normal k).area_pos]
    have := sign_mul_abs (rdot (N k) ((A k).sub s))
    calc _ = vlen (cross ((B k).sub (A k)) ((C k).sub (A k))) * ((SignType.sign (rdot (N k) ((A k).sub s)) : ℝ) * |rdot (N k) ((A k).sub s)|) := by ring
      _ = _ := by rw [this]

end
end Geec
