import Verif.Lemmas.PreciseEdge
import Verif.Lemmas.TensorDeriv
/-
The solid angle of a face in the limit of increasing precision.
-/
namespace Geec
open Filter Topology
noncomputable section

/-- solid angle and its gradient -/
def ContO (out : Setting → ℝ × V3 ℝ) : Prop := Cont (fun A => (out A).1) ∧ ContV (fun A => (out A).2)

theorem contM_dUnit {dV : Setting → M3 ℝ} {v : Setting → ℝ} {V dv : Setting → V3 ℝ} (h1 : ContM dV) (h2 : Cont v) (h3 : ContV V) (h4 : ContV dv)
    (h0 : v ideal ≠ 0) : ContM (fun A => @dUnit ℝ A (dV A) (v A) (V A) (dv A)) := by
  have hv := cont_mul h2 h2
  have h00 : v ideal * v ideal ≠ 0 := mul_ne_zero h0 h0
  exact ⟨contV_sdiv (contV_sub (contV_smul h2 h1.1) (contV_smul h4.1 h3)) hv h00,
    contV_sdiv (contV_sub (contV_smul h2 h1.2.1) (contV_smul h4.2.1 h3)) hv h00,
    contV_sdiv (contV_sub (contV_smul h2 h1.2.2) (contV_smul h4.2.2 h3)) hv h00⟩

theorem getAngle_cont {x b perp : Setting → ℝ} (hx : Cont x) (hb : Cont b) (hp : Cont perp) (x0 : x ideal ≠ 0) (b0 : |b ideal| < 1)
    (p0 : 0 < perp ideal) : ContE Cont (fun A => @getAngle ℝ A (x A) (b A) (perp A)) := by
  have h := abs_lt.mp b0
  refine ⟨_, ?_, cont_acos hb b0⟩
  filter_upwards [eq_false hx cont_zero x0, lt_false cont_one hb h.2, lt_false hb cont_negOne h.1, lt_false hp cont_zero p0] with A k1 k2 k3 k4
  simp only [getAngle, pyAcos, k1, k2, k3, k4, Bool.or_self, Bool.false_eq_true, if_false, Bind.bind, Except.bind, Pure.pure, Except.pure]

section
variable {x : Setting → ℝ} {pi pj pk : Setting → V3 ℝ} {points unitv cr : Setting → List (V3 ℝ)} {i : Nat}

theorem omega_step_cont (hx : Cont x) (hi : ContV pi) (hj : ContV pj) (hk : ContV pk)
    (hs : 0 < x ideal * det3 (pi ideal) (pj ideal) (pk ideal))
    (h1 : ∀ A : Setting, @at3 ℝ A (points A) i = pi A) (h2 : ∀ A : Setting, @at3 ℝ A (points A) ((i + 1) % 3) = pj A) (h3 : ∀ A : Setting, @at3 ℝ A (points A) ((i + 2) % 3) = pk A)
    (c1 : ∀ A : Setting, @at3 ℝ A (cr A) i = @cross ℝ A (pi A) (pj A)) (c2 : ∀ A : Setting, @at3 ℝ A (cr A) ((i + 1) % 3) = @cross ℝ A (pj A) (pk A))
    (u1 : ∀ A : Setting, @at3 ℝ A (unitv A) i = @V3.sdiv ℝ A (@cross ℝ A (pi A) (pj A)) (A.mnorm (@cross ℝ A (pi A) (pj A))))
    (u2 : ∀ A : Setting, @at3 ℝ A (unitv A) ((i + 1) % 3) = @V3.sdiv ℝ A (@cross ℝ A (pj A) (pk A)) (A.mnorm (@cross ℝ A (pj A) (pk A)))) :
    ContE Cont (fun A => @getAngle ℝ A (x A) (A.dot (@getA1A2 ℝ A i (x A) 3 (unitv A)).1 (@getA1A2 ℝ A i (x A) 3 (unitv A)).2)
      (@getPerp ℝ A i (x A) 3 (points A) (@getA1A2 ℝ A i (x A) 3 (unitv A)).1)) ∧
    ContE ContV (fun A => @getDangle ℝ A i (x A) (A.dot (@getA1A2 ℝ A i (x A) 3 (unitv A)).1 (@getA1A2 ℝ A i (x A) 3 (unitv A)).2)
      (@getPerp ℝ A i (x A) 3 (points A) (@getA1A2 ℝ A i (x A) 3 (unitv A)).1) (@getA1A2 ℝ A i (x A) 3 (unitv A)).1
      (@getA1A2 ℝ A i (x A) 3 (unitv A)).2 3 (fun k => @crossDp ℝ A (@at3 ℝ A (points A) k)) (cr A) (fun i => A.mnorm (@at3 ℝ A (cr A) i)) (unitv A)) := by
  have hh : x ideal ≠ 0 := by intro h; rw [h, zero_mul] at hs; exact lt_irrefl _ hs
  have hD : det3 (pi ideal) (pj ideal) (pk ideal) ≠ 0 := by intro h; rw [h, mul_zero] at hs; exact lt_irrefl _ hs
  have hb := sin_angle_pos hD
  have n1 := vlen_pos (cross_ne_of_det hD)
  have n2 := vlen_pos (cross_ne_of_det (by rw [det3_cyc] at hD; exact hD : det3 (pj ideal) (pk ideal) (pi ideal) ≠ 0))
  have C1 := contV_cross hi hj
  have C2 := contV_cross hj hk
  have N1 := cont_mnorm C1
  have N2 := cont_mnorm C2
  have U1 := contV_sdiv C1 N1 n1.ne'
  have U2 := contV_sdiv C2 N2 n2.ne'
  have U1' := contV_neg U1
  have V1 := contV_neg C1
  have dV1 := contM_add (contM_neg (contM_cross hi)) (contM_cross hj)
  have dV2 := contM_add (contM_neg (contM_cross hk)) (contM_cross hj)
  have hcos := cosAngle_units (pi ideal) (pj ideal) (pk ideal)
  have hsin : 0 < 1 - cosAngle (pi ideal) (pj ideal) (pk ideal) * cosAngle (pi ideal) (pj ideal) (pk ideal) := by
    have := abs_lt.mp hb; nlinarith
  have E1 := eq_false hx cont_zero hh
  have DA1 := contM_dUnit dV1 N1 V1 (contV_matVec dV1 U1') n1.ne'
  have DA2 := contM_dUnit dV2 N2 C2 (contV_matVec dV2 U2) n2.ne'
  have tail : ∀ {b perp : Setting → ℝ} {DB : Setting → V3 ℝ}, Cont b → Cont perp → ContV DB →
      b ideal = cosAngle (pi ideal) (pj ideal) (pk ideal) → 0 < perp ideal →
      ContE ContV (fun A => (@pySqrt ℝ A (A.sub A.one (A.mul (b A) (b A)))).bind fun denom =>
        if A.eq denom A.zero then .ok (@V3.zeros ℝ A)
        else if A.lt (perp A) A.zero then .ok (@V3.neg ℝ A (@V3.sdiv ℝ A (@V3.neg ℝ A (DB A)) denom))
        else .ok (@V3.sdiv ℝ A (@V3.neg ℝ A (DB A)) denom)) := by
    intro b perp DB hB hP hDB b0 p0
    have hs1 := cont_sub cont_one (cont_mul hB hB)
    have p1 : 0 < 1 - b ideal * b ideal := by rw [b0]; exact hsin
    have hsq := cont_sqrt hs1 p1
    have q0 : Real.sqrt (1 - b ideal * b ideal) ≠ 0 := (Real.sqrt_pos.mpr p1).ne'
    refine ⟨_, ?_, contV_sdiv (contV_neg hDB) hsq q0⟩
    filter_upwards [lt_false hs1 cont_zero p1, eq_false hsq cont_zero q0, lt_false hP cont_zero p0] with A k1 k2 k3
    simp only [pySqrt, k1, k2, k3, Bool.false_eq_true, if_false, Except.bind]
  rcases lt_or_gt_of_ne hh with hneg | hpos
  · have E2 := lt_false cont_zero hx hneg
    have B := cont_dot U1' U2
    have P := cont_dot hk U1'
    have p0 : 0 < rdot (pk ideal) ((cross (pi ideal) (pj ideal)).sdiv (vlen (cross (pi ideal) (pj ideal)))).neg := by
      rw [rdot_neg, rdot_sdiv, rdot_comm, ← det3_eq, neg_pos]
      exact div_neg_of_neg_of_pos (by nlinarith) n1
    constructor
    · refine contE_congr ?_ (getAngle_cont hx B P hh (lt_of_eq_of_lt (congrArg abs hcos) hb) p0)
      filter_upwards [E1, E2] with A k1 k2
      simp only [getA1A2, getPerp, k1, k2, Bool.false_eq_true, if_false, u1, u2, h3]
    · refine contE_congr ?_ (tail B P (contV_add (contV_matVec DA1 U2) (contV_matVec DA2 U1')) hcos p0)
      filter_upwards [E1, E2] with A k1 k2
      simp only [getA1A2, getPerp, getDangle, k1, k2, Bool.false_eq_true, if_false, u1, u2, h1, h2, h3, c1, c2]
      rfl
  · have E2 := lt_true cont_zero hx hpos
    have B := cont_dot U2 U1'
    have P := cont_dot hi U2
    have p0 : 0 < rdot (pi ideal) ((cross (pj ideal) (pk ideal)).sdiv (vlen (cross (pj ideal) (pk ideal)))) := by
      rw [rdot_sdiv]
      exact div_pos (show 0 < det3 _ _ _ by nlinarith) n2
    constructor
    · refine contE_congr ?_ (getAngle_cont hx B P hh (lt_of_eq_of_lt (congrArg abs ((rdot_comm _ _).trans hcos)) hb) p0)
      filter_upwards [E1, E2] with A k1 k2
      simp only [getA1A2, getPerp, k1, k2, if_true, Bool.false_eq_true, if_false, u1, u2, h1]
    · refine contE_congr ?_ (tail B P (contV_add (contV_matVec DA2 U1') (contV_matVec DA1 U2)) ((rdot_comm _ _).trans hcos) p0)
      filter_upwards [E1, E2] with A k1 k2
      simp only [getA1A2, getPerp, getDangle, k1, k2, if_true, Bool.false_eq_true, if_false, u1, u2, h1, h2, h3, c1, c2]
      rfl
end

section
open Arith
variable {S : Type} [Arith S]

/-- the three angles of a triangle, unrolled -/
theorem omegaKernel_unroll {a b c un obs : V3 S} {sg w0 w1 w2 : S} {v0 v1 v2 : V3 S} {points cr unitv : List (V3 S)} (gr : Bool)
    (hp : points = [a.sub obs, b.sub obs, c.sub obs])
    (hc : cr = [cross (a.sub obs) (b.sub obs), cross (b.sub obs) (c.sub obs), cross (c.sub obs) (a.sub obs)])
    (hu : unitv = cr.map (fun v => v.sdiv (mnorm v)))
    (k0 : getAngle (mdot un (a.sub obs)) (dot (getA1A2 0 (mdot un (a.sub obs)) 3 unitv).1 (getA1A2 0 (mdot un (a.sub obs)) 3 unitv).2)
      (getPerp 0 (mdot un (a.sub obs)) 3 points (getA1A2 0 (mdot un (a.sub obs)) 3 unitv).1) = .ok w0)
    (k1 : getAngle (mdot un (b.sub obs)) (dot (getA1A2 1 (mdot un (b.sub obs)) 3 unitv).1 (getA1A2 1 (mdot un (b.sub obs)) 3 unitv).2)
      (getPerp 1 (mdot un (b.sub obs)) 3 points (getA1A2 1 (mdot un (b.sub obs)) 3 unitv).1) = .ok w1)
    (k2 : getAngle (mdot un (c.sub obs)) (dot (getA1A2 2 (mdot un (c.sub obs)) 3 unitv).1 (getA1A2 2 (mdot un (c.sub obs)) 3 unitv).2)
      (getPerp 2 (mdot un (c.sub obs)) 3 points (getA1A2 2 (mdot un (c.sub obs)) 3 unitv).1) = .ok w2)
    (j0 : getDangle 0 (mdot un (a.sub obs)) (dot (getA1A2 0 (mdot un (a.sub obs)) 3 unitv).1 (getA1A2 0 (mdot un (a.sub obs)) 3 unitv).2)
      (getPerp 0 (mdot un (a.sub obs)) 3 points (getA1A2 0 (mdot un (a.sub obs)) 3 unitv).1) (getA1A2 0 (mdot un (a.sub obs)) 3 unitv).1
      (getA1A2 0 (mdot un (a.sub obs)) 3 unitv).2 3 (fun k => crossDp (at3 points k)) cr (fun i => mnorm (at3 cr i)) unitv = .ok v0)
    (j1 : getDangle 1 (mdot un (b.sub obs)) (dot (getA1A2 1 (mdot un (b.sub obs)) 3 unitv).1 (getA1A2 1 (mdot un (b.sub obs)) 3 unitv).2)
      (getPerp 1 (mdot un (b.sub obs)) 3 points (getA1A2 1 (mdot un (b.sub obs)) 3 unitv).1) (getA1A2 1 (mdot un (b.sub obs)) 3 unitv).1
      (getA1A2 1 (mdot un (b.sub obs)) 3 unitv).2 3 (fun k => crossDp (at3 points k)) cr (fun i => mnorm (at3 cr i)) unitv = .ok v1)
    (j2 : getDangle 2 (mdot un (c.sub obs)) (dot (getA1A2 2 (mdot un (c.sub obs)) 3 unitv).1 (getA1A2 2 (mdot un (c.sub obs)) 3 unitv).2)
      (getPerp 2 (mdot un (c.sub obs)) 3 points (getA1A2 2 (mdot un (c.sub obs)) 3 unitv).1) (getA1A2 2 (mdot un (c.sub obs)) 3 unitv).1
      (getA1A2 2 (mdot un (c.sub obs)) 3 unitv).2 3 (fun k => crossDp (at3 points k)) cr (fun i => mnorm (at3 cr i)) unitv = .ok v2) :
    omegaKernel [a, b, c] un obs sg gr = .ok (Arith.neg sg *. (zero +. w0 +. w1 +. w2 -. Arith.ofNat 1 *. pi),
      V3.smul (Arith.neg sg) (if gr then ((V3.zeros.add v0).add v1).add v2 else V3.zeros)) := by
  unfold omegaKernel
  have hl : [a, b, c].length = 3 := rfl
  have hpts : [a, b, c].map (fun p => p.sub obs) = points := hp.symm
  have hr : List.range 3 = [0, 1, 2] := rfl
  rw [hl, hpts]
  simp only [hr]
  have hcr : [0, 1, 2].map (fun i => cross (at3 points i) (at3 points ((i + 1) % 3))) = cr := by rw [hp, hc]; rfl
  simp only [hcr]
  have hun : [0, 1, 2].map (fun i => (at3 cr i).sdiv (mnorm (at3 cr i))) = unitv := by rw [hu, hc]; rfl
  simp only [hun]
  have m0 : mdot un (at3 points 0) = mdot un (a.sub obs) := by rw [hp]; rfl
  have m1 : mdot un (at3 points 1) = mdot un (b.sub obs) := by rw [hp]; rfl
  have m2 : mdot un (at3 points 2) = mdot un (c.sub obs) := by rw [hp]; rfl
  simp only [List.foldlM_cons, List.foldlM_nil, Bind.bind, Except.bind, Pure.pure, Except.pure, m0, m1, m2, k0, k1, k2, j0, j1, j2]
  cases gr <;> rfl
end

theorem omegaKernel_cont {a b c obs : V3 ℝ} {un : Setting → V3 ℝ} {sg : Setting → ℝ} (hun : ContV un) (hsg : Cont sg) {h : ℝ}
    (ha : rdot (un ideal) (a.sub obs) = h) (hb : rdot (un ideal) (b.sub obs) = h) (hc : rdot (un ideal) (c.sub obs) = h)
    (hs : 0 < h * det3 (a.sub obs) (b.sub obs) (c.sub obs)) (gr : Bool) :
    ContE ContO (fun A => @omegaKernel ℝ A [A.move a, A.move b, A.move c] (un A) (A.place obs) (sg A) gr) := by
  have P1 : ContV (fun A => @V3.sub ℝ A (A.move a) (A.place obs)) := contV_sub (contV_move _) (contV_place _)
  have P2 : ContV (fun A => @V3.sub ℝ A (A.move b) (A.place obs)) := contV_sub (contV_move _) (contV_place _)
  have P3 : ContV (fun A => @V3.sub ℝ A (A.move c) (A.place obs)) := contV_sub (contV_move _) (contV_place _)
  have D1 := cont_mdot hun P1
  have D2 := cont_mdot hun P2
  have D3 := cont_mdot hun P3
  have hs2 : 0 < h * det3 (b.sub obs) (c.sub obs) (a.sub obs) := by rw [← det3_cyc]; exact hs
  have hs3 : 0 < h * det3 (c.sub obs) (a.sub obs) (b.sub obs) := by rw [← det3_cyc]; exact hs2
  let pts : Setting → List (V3 ℝ) := fun A => [@V3.sub ℝ A (A.move a) (A.place obs), @V3.sub ℝ A (A.move b) (A.place obs), @V3.sub ℝ A (A.move c) (A.place obs)]
  let cr : Setting → List (V3 ℝ) := fun A => [@cross ℝ A (@V3.sub ℝ A (A.move a) (A.place obs)) (@V3.sub ℝ A (A.move b) (A.place obs)), @cross ℝ A (@V3.sub ℝ A (A.move b) (A.place obs)) (@V3.sub ℝ A (A.move c) (A.place obs)),
    @cross ℝ A (@V3.sub ℝ A (A.move c) (A.place obs)) (@V3.sub ℝ A (A.move a) (A.place obs))]
  let uv : Setting → List (V3 ℝ) := fun A => (cr A).map (fun v => @V3.sdiv ℝ A v (A.mnorm v))
  obtain ⟨⟨w0, a0, b0⟩, ⟨v0, d0, e0⟩⟩ := omega_step_cont (i := 0) (points := pts) (cr := cr) (unitv := uv) D1 P1 P2 P3
    (by show 0 < rdot (un ideal) (a.sub obs) * det3 _ _ _; rw [ha]; exact hs) (fun _ => rfl) (fun _ => rfl) (fun _ => rfl) (fun _ => rfl) (fun _ => rfl) (fun _ => rfl) (fun _ => rfl)
  obtain ⟨⟨w1, a1, b1⟩, ⟨v1, d1, e1⟩⟩ := omega_step_cont (i := 1) (points := pts) (cr := cr) (unitv := uv) D2 P2 P3 P1
    (by show 0 < rdot (un ideal) (b.sub obs) * det3 _ _ _; rw [hb]; exact hs2) (fun _ => rfl) (fun _ => rfl) (fun _ => rfl) (fun _ => rfl) (fun _ => rfl) (fun _ => rfl) (fun _ => rfl)
  obtain ⟨⟨w2, a2, b2⟩, ⟨v2, d2, e2⟩⟩ := omega_step_cont (i := 2) (points := pts) (cr := cr) (unitv := uv) D3 P3 P1 P2
    (by show 0 < rdot (un ideal) (c.sub obs) * det3 _ _ _; rw [hc]; exact hs3) (fun _ => rfl) (fun _ => rfl) (fun _ => rfl) (fun _ => rfl) (fun _ => rfl) (fun _ => rfl) (fun _ => rfl)
  have W := cont_mul (cont_neg hsg) (cont_sub (cont_add (cont_add (cont_add cont_zero b0) b1) b2) (cont_mul (cont_ofNat 1) cont_pi))
  have V : ContV (fun A => @V3.smul ℝ A (A.neg (sg A)) (if gr then @V3.add ℝ A (@V3.add ℝ A (@V3.add ℝ A (@V3.zeros ℝ A) (v0 A)) (v1 A)) (v2 A) else @V3.zeros ℝ A)) := by
    cases gr
    · exact contV_smul (cont_neg hsg) contV_zeros
    · exact contV_smul (cont_neg hsg) (contV_add (contV_add (contV_add contV_zeros e0) e1) e2)
  refine ⟨fun A => (_, _), ?_, W, V⟩
  filter_upwards [a0, a1, a2, d0, d1, d2] with A k0 k1 k2 j0 j1 j2
  exact @omegaKernel_unroll ℝ A (A.move a) (A.move b) (A.move c) (un A) (A.place obs) (sg A) (w0 A) (w1 A) (w2 A) (v0 A) (v1 A) (v2 A) (pts A) (cr A) (uv A) gr rfl rfl rfl k0 k1 k2 j0 j1 j2

end
end Geec
