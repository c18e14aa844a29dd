import Mathlib.Algebra.Field.Basic
/-
Specification side of the flow properties: bilinear interpolation on a quadrilateral with nodes numbered 0, 1, 2, 3 round it,
and the differences of nodal values along its edges.
-/
namespace Sg.Spec

variable {K : Type} [Field K]

/-- The bilinear interpolant of the nodal values `v` at index position `x`: node 0 is at (0, 0), node 1 at (1, 0), node 2
at (1, 1) and node 3 at (0, 1). -/
def bilin (v : Fin 4 → K) (x : Fin 2 → K) : K :=
  (1 - x 0) * (1 - x 1) * v 0 + x 0 * (1 - x 1) * v 1 + x 0 * x 1 * v 2 + (1 - x 0) * x 1 * v 3

/-- Difference of the nodal values along each edge: edge 0 from node 0 to node 1, edge 1 from node 3 to node 2, edge 2 from
node 0 to node 3, edge 3 from node 1 to node 2. -/
def edgeDiff (v : Fin 4 → K) (e : Fin 4) : K :=
  match e with
  | 0 => v 1 - v 0
  | 1 => v 2 - v 3
  | 2 => v 3 - v 0
  | 3 => v 2 - v 1

/-- Flow obtained from projections and edge data. -/
def flowDot (p e : Fin 4 → K) : K := p 0 * e 0 + p 1 * e 1 + p 2 * e 2 + p 3 * e 3

/-- An index position in the cell. -/
def InCell [LE K] (x : Fin 2 → K) : Prop := ∀ k, 0 ≤ x k ∧ x k ≤ 1

end Sg.Spec
