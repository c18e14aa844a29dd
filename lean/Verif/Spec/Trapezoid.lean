import Verif.Spec.Quad
import Mathlib.Data.Real.Sqrt
/-
Quadrilaterals two sides of which are parallel.
-/
namespace Sg.Spec

/-- Two vectors of the plane have the same or the opposite direction, or one of them is zero. -/
def Parallel (u w : ℝ × ℝ) : Prop := u.1 * w.2 = u.2 * w.1

/-- A convex quadrilateral with nodes 0, 1, 2, 3 round it, of which the sides from 0 to 3 and from 1 to 2 are parallel, or those
from 0 to 1 and from 3 to 2.  Parallelograms are such quadrilaterals, the cells of polar grids are, and triangles, if two
neighbouring nodes are the same point, or one node is on a line with its neighbours and the sides fit. -/
structure Trapezoid (q : Fin 4 → ℝ × ℝ) : Prop where
  convex : ConvexQuad q
  parallel : Parallel (q 3 - q 0) (q 2 - q 1) ∨ Parallel (q 1 - q 0) (q 2 - q 3)

/-- The distance of two points of the plane. -/
noncomputable def apart (p r : ℝ × ℝ) : ℝ := Real.sqrt ((p.1 - r.1) ^ 2 + (p.2 - r.2) ^ 2)

end Sg.Spec
