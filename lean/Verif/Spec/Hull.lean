import Verif.Model.RealArith
import Mathlib.Analysis.Convex.Hull
import Mathlib.Analysis.Normed.Group.Basic
import Mathlib.Analysis.Normed.Field.Basic
import Mathlib.Topology.Constructions.SumProd
/-
What `scipy.spatial.ConvexHull` is assumed to return: a triangulation of the boundary of the convex hull.
Stated with Mathlib's `convexHull` and topology on `ℝ × ℝ × ℝ`, not with the functions of the model.
-/
namespace Geec
noncomputable section

/-- points of space -/
abbrev P3 := ℝ × ℝ × ℝ

def V3.toP (v : V3 ℝ) : P3 := (v.x, v.y, v.z)

/-- closed triangle -/
def triangle (a b c : V3 ℝ) : Set P3 := convexHull ℝ {a.toP, b.toP, c.toP}

/-- the triangle without its sides -/
def openTriangle (a b c : V3 ℝ) : Set P3 :=
  {q | ∃ u v w : ℝ, 0 < u ∧ 0 < v ∧ 0 < w ∧ u + v + w = 1 ∧ q = u • a.toP + v • b.toP + w • c.toP}

/-- the three points are on a line (or equal) -/
def Collinear3 (a b c : V3 ℝ) : Prop :=
  ∃ (u v : P3), ∀ q ∈ [a, b, c], ∃ t : ℝ, q.toP = u + t • v

/-- `i` is one of the corners of the simplex `s` -/
def Corner (s : Nat × Nat × Nat) (i : Nat) : Prop := i = s.1 ∨ i = s.2.1 ∨ i = s.2.2

namespace Hull

/-- the solid body -/
def body (h : Hull ℝ) : Set P3 := convexHull ℝ {q | ∃ p ∈ h.points, q = p.toP}

/-- the point with index `i` -/
def pt (h : Hull ℝ) (i : Nat) : V3 ℝ := at3 h.points i

/-- the closed triangle of a simplex -/
def tri (h : Hull ℝ) (s : Nat × Nat × Nat) : Set P3 := triangle (h.pt s.1) (h.pt s.2.1) (h.pt s.2.2)

/-- the open triangle of a simplex -/
def otri (h : Hull ℝ) (s : Nat × Nat × Nat) : Set P3 := openTriangle (h.pt s.1) (h.pt s.2.1) (h.pt s.2.2)

/-- The contract of the hull library for a full-dimensional set of points: the simplices triangulate the boundary of
the body (in any vertex order), `vertices` span the body, `neighbors` are the simplices that share a side. -/
structure IsHull (h : Hull ℝ) : Prop where
  /-- the body is full-dimensional -/
  solid : (interior h.body).Nonempty
  /-- the hull vertices are indices of points and generate the body -/
  vertexIndex : ∀ i ∈ h.vertices, i < h.points.length
  vertexHull : h.body ⊆ convexHull ℝ {q | ∃ i ∈ h.vertices, q = (h.pt i).toP}
  /-- simplices are triangles of points of the hull -/
  cornerIndex : ∀ s ∈ h.simplices, ∀ i, Corner s i → i < h.points.length
  proper : ∀ s ∈ h.simplices, ¬ Collinear3 (h.pt s.1) (h.pt s.2.1) (h.pt s.2.2)
  /-- the triangles cover the boundary, and only the boundary -/
  cover : frontier h.body = {q | ∃ s ∈ h.simplices, q ∈ h.tri s}
  /-- different triangles have no interior point in common -/
  disjoint : ∀ (k k' : Nat) s s', h.simplices[k]? = some s → h.simplices[k']? = some s' → k ≠ k' →
    Disjoint (h.otri s) (h.otri s')
  /-- one row of neighbours for each simplex -/
  rows : h.neighbors.length = h.simplices.length
  /-- neighbours are the other simplices with a common side -/
  neighbor : ∀ (k : Nat) s nb, h.simplices[k]? = some s → h.neighbors[k]? = some nb → ∀ n : Nat, n ∈ nb ↔
    n ≠ k ∧ ∃ t, h.simplices[n]? = some t ∧ ∃ a b, a ≠ b ∧ Corner s a ∧ Corner s b ∧ Corner t a ∧ Corner t b
  /-- every side belongs to exactly two simplices -/
  side : ∀ (k : Nat) s, h.simplices[k]? = some s → ∀ a b, a ≠ b → Corner s a → Corner s b →
    ∃! n : Nat, n ≠ k ∧ ∃ t, h.simplices[n]? = some t ∧ Corner t a ∧ Corner t b

end Hull
end
end Geec
