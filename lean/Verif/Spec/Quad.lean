import Verif.Spec.Hull
import Mathlib.Analysis.Convex.Segment
/-
Vocabulary of the statements about quadrilaterals.
-/
namespace Sg.Spec

/-- The region covered by a convex quadrilateral with the given nodes. -/
def quadRegion (q : Fin 4 → ℝ × ℝ) : Set (ℝ × ℝ) := convexHull ℝ (Set.range q)

/-- Going around the nodes one never turns right, or never left, and turns somewhere.  Nodes may coincide and angles may
be flat: the cells next to the centre of a polar grid are triangles. -/
def ConvexQuad (q : Fin 4 → ℝ × ℝ) : Prop :=
  ((∀ i, 0 ≤ area2 (q i) (q (i + 1)) (q (i + 2))) ∨ (∀ i, area2 (q i) (q (i + 1)) (q (i + 2)) ≤ 0)) ∧
  ∃ i, area2 (q i) (q (i + 1)) (q (i + 2)) ≠ 0

/-- A barycentric coordinate that is negative is so by more than the tolerance 1e-12. -/
def ClearSign (u : ℝ) : Prop := 0 ≤ u ∨ u < -(1 / 1000000000000)

/-- The barycentric coordinates of `p` in the triangle `a`, `b`, `c`, if it is one, have clear signs. -/
def ClearOfSides (a b c p : ℝ × ℝ) : Prop :=
  area2 a b c ≠ 0 → ∀ u v w : ℝ, u + v + w = 1 → p = u • a + v • b + w • c → ClearSign u ∧ ClearSign v ∧ ClearSign w

/-- A parameter along an edge is not between 0 and 1 and closer to them than the tolerance. -/
def ClearParam (s : ℝ) : Prop := s ≤ 0 ∨ (1 / 1000000000000 < s ∧ s ≤ 1 - 1 / 1000000000000) ∨ 1 ≤ s

/-- The edges are parallel, or the crossing of their lines is clearly inside, at an end or outside of each of them. -/
def ClearCrossing (a0 a1 b0 b1 : ℝ × ℝ) : Prop :=
  (a1.1 - a0.1) * (b1.2 - b0.2) - (a1.2 - a0.2) * (b1.1 - b0.1) ≠ 0 →
  ∀ s t : ℝ, a0 + s • (a1 - a0) = b0 + t • (b1 - b0) → ClearParam s ∧ ClearParam t

/-- No decision about the two quadrilaterals is closer than the tolerance: every node of one is clearly inside, on the
boundary or outside of the two triangles the other is cut into, and crossings of edges are clear. -/
structure ClearPair (q1 q2 : Fin 4 → ℝ × ℝ) : Prop where
  nodes12 : ∀ i, ClearOfSides (q2 0) (q2 1) (q2 3) (q1 i) ∧ ClearOfSides (q2 2) (q2 3) (q2 1) (q1 i)
  nodes21 : ∀ i, ClearOfSides (q1 0) (q1 1) (q1 3) (q2 i) ∧ ClearOfSides (q1 2) (q1 3) (q1 1) (q2 i)
  edges : ∀ i j, ClearCrossing (q1 i) (q1 (i + 1)) (q2 j) (q2 (j + 1))

/-- The nodes of each quadrilateral that lie in the other and the proper crossings of their edges. -/
def cornerPoints (q1 q2 : Fin 4 → ℝ × ℝ) : Set (ℝ × ℝ) :=
  {p | (∃ i, p = q1 i ∧ p ∈ quadRegion q2) ∨ (∃ i, p = q2 i ∧ p ∈ quadRegion q1) ∨
    ∃ i j, (q1 (i + 1) - q1 i).1 * (q2 (j + 1) - q2 j).2 - (q1 (i + 1) - q1 i).2 * (q2 (j + 1) - q2 j).1 ≠ 0 ∧
      p ∈ openSegment ℝ (q1 i) (q1 (i + 1)) ∧ p ∈ openSegment ℝ (q2 j) (q2 (j + 1))}

end Sg.Spec
