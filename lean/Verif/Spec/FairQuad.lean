import Verif.Spec.Trapezoid
/-
Quadrilaterals whose corners are not too different.
-/
namespace Sg.Spec

/-- A convex quadrilateral with sides not longer than 100.  The areas of the triangles at its corners (two sides that meet and the diagonal)
differ at most by a factor 16, and the angles at its corners are between 30 and 150 degrees: the product of two sides that meet is
at most four times the area of their triangle. -/
structure FairQuad (q : Fin 4 → ℝ × ℝ) : Prop where
  convex : ConvexQuad q
  areas : ∀ i j, |area2 (q i) (q (i + 1)) (q (i + 2))| ≤ 16 * |area2 (q j) (q (j + 1)) (q (j + 2))|
  angles : ∀ i, apart (q i) (q (i + 1)) * apart (q (i + 1)) (q (i + 2)) ≤ 2 * |area2 (q i) (q (i + 1)) (q (i + 2))|
  sides : ∀ i, apart (q i) (q (i + 1)) ≤ 100

end Sg.Spec
