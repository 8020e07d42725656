import Verif.Spec.Hull
/-
Points in general position: no four of them in a plane.  Firm points: those on the boundary of the solid are its corners.
-/
namespace Geec
noncomputable section

/-- the four points are in a plane -/
def Coplanar4 (a b c d : V3 ℝ) : Prop := ∃ n : V3 ℝ, n ≠ V3.zeros ∧ rdot n b = rdot n a ∧ rdot n c = rdot n a ∧ rdot n d = rdot n a

/-- four different indices -/
def Distinct4 (i j k l : Nat) : Prop := i ≠ j ∧ i ≠ k ∧ i ≠ l ∧ j ≠ k ∧ j ≠ l ∧ k ≠ l

/-- at least four points, and no four of them in a plane -/
structure General (pts : List (V3 ℝ)) : Prop where
  four : 4 ≤ pts.length
  planes : ∀ i j k l, i < pts.length → j < pts.length → k < pts.length → l < pts.length → Distinct4 i j k l →
    ¬ Coplanar4 (at3 pts i) (at3 pts j) (at3 pts k) (at3 pts l)

/-- The points span a solid, and each of them is a corner of it, where a plane touches no other point, or in the inside.  So no point is in a face or an edge without being a corner.
Four or more points in a plane are allowed, as for prisms. -/
structure Firm (pts : List (V3 ℝ)) : Prop where
  solid : (interior (convexHull ℝ {q : P3 | ∃ p ∈ pts, q = p.toP})).Nonempty
  corner : ∀ i, i < pts.length → (at3 pts i).toP ∈ interior (convexHull ℝ {q : P3 | ∃ p ∈ pts, q = p.toP}) ∨
    ∃ n : V3 ℝ, ∀ l, l < pts.length → l ≠ i → rdot n (at3 pts l) < rdot n (at3 pts i)

end
end Geec
