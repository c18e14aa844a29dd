import Verif.Spec.Whitney
import Verif.Spec.Tensor
import Mathlib.MeasureTheory.Integral.IntervalIntegral.Basic
import Mathlib.Analysis.Calculus.Deriv.Basic
/-
Specification side: the circulation of edge data round a cell, and the area of a closed line.
-/
namespace Sg.Spec

/-- The sum of the edge data round cell `(i, j)`: along its first edge, up the right one, back along the upper one and down the left one. -/
def cellCirculation (n1 : Nat) (x y : List ℝ) (i j : Nat) : ℝ :=
  x.getD (xEdge n1 i j) 0 + y.getD (yEdge n1 (i + 1) j) 0 - x.getD (xEdge n1 i (j + 1)) 0 - y.getD (yEdge n1 i j) 0

/-- The area of the closed line with nodes `p 0`, ..., `p n = p 0` by the shoelace formula: positive if it runs anticlockwise. -/
noncomputable def loopArea (p : Nat → ℝ × ℝ) (n : Nat) : ℝ :=
  (∑ k ∈ Finset.range n, ((p k).1 * (p (k + 1)).2 - (p (k + 1)).1 * (p k).2)) / 2

/-- The area of a parallelogram, positive if its nodes run anticlockwise. -/
def cellArea (q : Fin 4 → ℝ × ℝ) : ℝ :=
  ((q 1).1 - (q 0).1) * ((q 3).2 - (q 0).2) - ((q 1).2 - (q 0).2) * ((q 3).1 - (q 0).1)

/-- The share of cell `(i, j)` of a product grid that a closed line encloses, counted with sign: the area, by the integral of the first coordinate with respect
to the second, of the line with coordinates `(U k, V k)` moved to the nearest place in the cell, in coordinates from 0 to 1 over the cell. -/
noncomputable def enclosedShare (X Y U V : Nat → ℝ) (m i j : Nat) : ℝ :=
  ∑ k ∈ Finset.range m, ∫ t in (0 : ℝ)..1, ramp X i (U k + t * (U (k + 1) - U k)) * deriv (fun t : ℝ => ramp Y j (V k + t * (V (k + 1) - V k))) t

end Sg.Spec
