import Verif.Spec.Hull
import Mathlib.MeasureTheory.Integral.IntervalIntegral.Basic
import Mathlib.MeasureTheory.Integral.Prod
import Mathlib.MeasureTheory.Measure.Lebesgue.Basic
/-
Integrals that the code is meant to compute, and the stations where it can be expected to.
-/
namespace Geec
open Arith MeasureTheory
noncomputable section

/-- length of a vector -/
def vlen (a : V3 ℝ) : ℝ := Real.sqrt (rdot a a)

/-- `∫₀¹ dv / |R + v L|` -/
def lineJ (R L : V3 ℝ) : ℝ := ∫ v in (0 : ℝ)..1, 1 / vlen (R.add (V3.smul v L))

/-- The station `s` is clear of the edge from `a` to `b`: off its line, and not in the thin region where the code
treats it as lying on the line (`|a-s| + (a-s)·u ≤ eps`, `u` the unit tangent); or exactly on the line, outside the edge, and not
closer than `eps / 2` to the nearest end. -/
def ClearOf (a b s : V3 ℝ) : Prop :=
  (cross (a.sub s) (b.sub a) ≠ V3.zeros ∧ repsilon < vlen (a.sub s) + rdot (a.sub s) (b.sub a) / vlen (b.sub a)) ∨
  (∃ c : ℝ, 0 < c ∧ a.sub s = V3.smul c (b.sub a) ∧ repsilon < 2 * vlen (a.sub s)) ∨
  (∃ c : ℝ, 0 < c ∧ s.sub b = V3.smul c (b.sub a) ∧ repsilon < 2 * vlen (b.sub s))

/-- the triangle of parameters of a surface integral -/
def triParam : Set (ℝ × ℝ) := {w | 0 < w.1 ∧ 0 < w.2 ∧ w.1 + w.2 < 1}

/-- Integral of `F` over the triangle `a b c` with respect to area: the triangle is parametrised by
`a + w₁ (b - a) + w₂ (c - a)`, which multiplies areas by `|(b - a) × (c - a)|`. -/
def surfaceIntegral (a b c : V3 ℝ) (F : V3 ℝ → ℝ) : ℝ :=
  vlen (cross (b.sub a) (c.sub a)) *
    ∫ w in triParam, F ((a.add (V3.smul w.1 (b.sub a))).add (V3.smul w.2 (c.sub a)))

/-- signed solid angle of the triangle `a b c` with normal `n` seen from `s` -/
def solidAngle (n a b c s : V3 ℝ) : ℝ :=
  surfaceIntegral a b c (fun x => rdot n (x.sub s) / vlen (x.sub s) ^ 3)

/-- `n` is the unit normal of the triangle `a b c` on the side from which it is seen counter-clockwise -/
structure IsNormal (n a b c : V3 ℝ) : Prop where
  unit : rdot n n = 1
  ortho1 : rdot n (b.sub a) = 0
  ortho2 : rdot n (c.sub a) = 0
  pos : 0 < rdot n (cross (b.sub a) (c.sub a))

/-- distance of the point `q` from the station `s` -/
def dist3 (q : P3) (s : V3 ℝ) : ℝ := Real.sqrt ((q.1 - s.x) ^ 2 + (q.2.1 - s.y) ^ 2 + (q.2.2 - s.z) ^ 2)

/-- Newton's law: the attraction of the homogeneous body `B` (density and gravitational constant 1) at the station `s`,
`∫_B (q - s) / |q - s|³ dq` -/
def attraction (B : Set P3) (s : V3 ℝ) : V3 ℝ :=
  ⟨∫ q in B, (q.1 - s.x) / dist3 q s ^ 3, ∫ q in B, (q.2.1 - s.y) / dist3 q s ^ 3, ∫ q in B, (q.2.2 - s.z) / dist3 q s ^ 3⟩

/-- The station `s` is in a regular position with respect to the hull: every triangle either lies in a plane through the
station, or in a plane at a distance more than `eps` and the station is clear of its three sides. -/
def Hull.Regular (h : Hull ℝ) (s : V3 ℝ) : Prop :=
  ∀ t ∈ h.simplices,
    rdot (cross ((h.pt t.2.1).sub (h.pt t.1)) ((h.pt t.2.2).sub (h.pt t.1))) ((h.pt t.1).sub s) = 0 ∨
    (repsilon * vlen (cross ((h.pt t.2.1).sub (h.pt t.1)) ((h.pt t.2.2).sub (h.pt t.1))) <
        |rdot (cross ((h.pt t.2.1).sub (h.pt t.1)) ((h.pt t.2.2).sub (h.pt t.1))) ((h.pt t.1).sub s)| ∧
      ∀ i j, Corner t i → Corner t j → i ≠ j → ClearOf (h.pt i) (h.pt j) s)

end
end Geec
