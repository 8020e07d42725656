import Verif.Spec.Precision
/-
Inexact inputs together with an inexact arithmetic: the points of a body, the station, the density and the constant of gravitation are changed a little
before they are given to the code.
-/
namespace Geec
noncomputable section

/-- all components of `v` within `ε` of those of `w` -/
def NearV (ε : ℝ) (v w : V3 ℝ) : Prop := |v.x - w.x| ≤ ε ∧ |v.y - w.y| ≤ ε ∧ |v.z - w.z| ≤ ε

/-- every entry of `M` within `ε` of that of `N` -/
def NearM (ε : ℝ) (M N : M3 ℝ) : Prop := NearV ε M.r0 N.r0 ∧ NearV ε M.r1 N.r1 ∧ NearV ε M.r2 N.r2

/-- An arithmetic, and how the inputs are changed: the points of bodies, stations, densities and constants of gravitation.  Points with the same coordinates
are changed in the same way. -/
structure Setting extends Arith ℝ where
  move : V3 ℝ → V3 ℝ
  place : V3 ℝ → V3 ℝ
  weigh : ℝ → ℝ
  scale : ℝ → ℝ

instance : CoeOut Setting (Arith ℝ) := ⟨Setting.toArith⟩

/-- exact numbers, and exact inputs -/
@[reducible] def ideal : Setting := { realArith with move := id, place := id, weigh := id, scale := id }

/-- an arithmetic, with exact inputs -/
@[reducible] def Setting.plain (A : Arith ℝ) : Setting := { A with move := id, place := id, weigh := id, scale := id }

/-- The arithmetic is accurate to `u` on numbers of size at most `M`, and inputs of size at most `M` are changed by at most `u`. -/
structure Setting.AccurateOn (A : Setting) (M u : ℝ) : Prop extends Geec.AccurateOn A.toArith M u where
  move : ∀ p, SizeLe M p → NearV u (A.move p) p
  place : ∀ p, SizeLe M p → NearV u (A.place p) p
  weigh : ∀ x, |x| ≤ M → |A.weigh x - x| ≤ u
  scale : ∀ x, |x| ≤ M → |A.scale x - x| ≤ u

/-- the case of the size `1 / u` -/
def Setting.Accurate (A : Setting) (u : ℝ) : Prop := A.AccurateOn (1 / u) u

theorem NearV.mono {u v : ℝ} {p q : V3 ℝ} (h : NearV u p q) (huv : u ≤ v) : NearV v p q := ⟨h.1.trans huv, h.2.1.trans huv, h.2.2.trans huv⟩

theorem NearV.rfl {u : ℝ} (hu : 0 ≤ u) (p : V3 ℝ) : NearV u p p := by simp [NearV, hu]

theorem SizeLe.mono {M N : ℝ} {p : V3 ℝ} (h : SizeLe N p) (hNM : N ≤ M) : SizeLe M p := ⟨h.1.trans hNM, h.2.1.trans hNM, h.2.2.trans hNM⟩

theorem Setting.AccurateOn.mono {A : Setting} {M N u v : ℝ} (hN : 0 < N) (hNM : N ≤ M) (huv : u ≤ v) (h : A.AccurateOn M u) : A.AccurateOn N v :=
  { Geec.AccurateOn.mono hN hNM huv h.toAccurateOn with
    move := fun p hp => (h.move p (hp.mono hNM)).mono huv
    place := fun p hp => (h.place p (hp.mono hNM)).mono huv
    weigh := fun x hx => (h.weigh x (hx.trans hNM)).trans huv
    scale := fun x hx => (h.scale x (hx.trans hNM)).trans huv }

theorem Setting.Accurate.mono {A : Setting} {u v : ℝ} (hu : 0 < u) (huv : u ≤ v) (h : A.Accurate u) : A.Accurate v :=
  Setting.AccurateOn.mono (one_div_pos.mpr (hu.trans_le huv)) (one_div_le_one_div_of_le hu huv) huv h

theorem plain_accurateOn {A : Arith ℝ} {M u : ℝ} (hu : 0 ≤ u) (h : Geec.AccurateOn A M u) : (Setting.plain A).AccurateOn M u :=
  { h with
    move := fun p _ => NearV.rfl hu p
    place := fun p _ => NearV.rfl hu p
    weigh := fun x _ => by simp [hu]
    scale := fun x _ => by simp [hu] }

theorem plain_accurate {A : Arith ℝ} {u : ℝ} (hu : 0 ≤ u) (h : Geec.Accurate A u) : (Setting.plain A).Accurate u :=
  plain_accurateOn hu (accurate_iff.mp h)

theorem Setting.Accurate.arith {A : Setting} {u : ℝ} (h : A.Accurate u) : Geec.Accurate A u := accurate_iff.mpr h.toAccurateOn

end
end Geec
