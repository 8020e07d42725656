import Verif.Model.RealArith
/-
Moving a body and a station: translations, rotations, scalings.
-/
namespace Geec
open Arith
noncomputable section

/-- the rows are orthonormal and right-handed: a rotation matrix -/
structure IsRotation (R : M3 ℝ) : Prop where
  n0 : rdot R.r0 R.r0 = 1
  n1 : rdot R.r1 R.r1 = 1
  o01 : rdot R.r0 R.r1 = 0
  r2 : R.r2 = ⟨R.r0.y * R.r1.z - R.r0.z * R.r1.y, R.r0.z * R.r1.x - R.r0.x * R.r1.z, R.r0.x * R.r1.y - R.r0.y * R.r1.x⟩

/-- `R a` -/
def M3.apply (R : M3 ℝ) (a : V3 ℝ) : V3 ℝ := ⟨rdot R.r0 a, rdot R.r1 a, rdot R.r2 a⟩

/-- `x ↦ k (R x) + t` -/
structure Motion where
  k : ℝ
  R : M3 ℝ
  t : V3 ℝ

/-- a proper motion: a rotation, a scaling by a positive factor, a translation -/
structure Motion.Proper (φ : Motion) : Prop where
  pos : 0 < φ.k
  rot : IsRotation φ.R

namespace Motion

def lin (φ : Motion) (a : V3 ℝ) : V3 ℝ := V3.smul φ.k (φ.R.apply a)

def app (φ : Motion) (a : V3 ℝ) : V3 ℝ := (φ.lin a).add φ.t

/-- the identity matrix -/
def one : M3 ℝ := ⟨⟨1, 0, 0⟩, ⟨0, 1, 0⟩, ⟨0, 0, 1⟩⟩

def translation (t : V3 ℝ) : Motion := ⟨1, one, t⟩
def rotation (R : M3 ℝ) : Motion := ⟨1, R, ⟨0, 0, 0⟩⟩
def scaling (k : ℝ) : Motion := ⟨k, one, ⟨0, 0, 0⟩⟩

end Motion

/-- the hull library's result for the moved points: the same indices -/
def Hull.move (φ : Motion) (h : Hull ℝ) : Hull ℝ := { h with points := h.points.map φ.app }

end
end Geec
