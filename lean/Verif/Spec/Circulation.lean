import Verif.Spec.Tensor
import Verif.Spec.Line
import Mathlib.MeasureTheory.Integral.IntervalIntegral.Basic
/-
Specification side: integrals of a vector field along segments and along the edges of a grid.
-/
namespace Sg.Spec

/-- The component of a vector along a displacement, times its length. -/
def dotProd (a b : ℝ × ℝ) : ℝ := a.1 * b.1 + a.2 * b.2

/-- The integral of the vector field `v` along the segment from `a` to `b`. -/
noncomputable def lineIntegral (v : ℝ × ℝ → ℝ × ℝ) (a b : ℝ × ℝ) : ℝ := ∫ t in (0 : ℝ)..1, dotProd (v (a + t • (b - a))) (b - a)

/-- Node `(i, j)` of a grid. -/
def gridPoint (n1 : Nat) (xs ys : List ℝ) (i j : Nat) : ℝ × ℝ := (xs.getD (nodePlace n1 (i, j)) 0, ys.getD (nodePlace n1 (i, j)) 0)

/-- The edge data are the integrals of the vector field `v` along the edges of the grid. -/
structure EdgeIntegrals (n0 n1 : Nat) (xs ys : List ℝ) (v : ℝ × ℝ → ℝ × ℝ) (x y : List ℝ) : Prop where
  lenx : (n0 - 1) * n1 ≤ x.length
  leny : n0 * (n1 - 1) ≤ y.length
  first : ∀ i j, i < n0 - 1 → j < n1 → x.getD (xEdge n1 i j) 0 = lineIntegral v (gridPoint n1 xs ys i j) (gridPoint n1 xs ys (i + 1) j)
  second : ∀ i j, i < n0 → j < n1 - 1 → y.getD (yEdge n1 i j) 0 = lineIntegral v (gridPoint n1 xs ys i j) (gridPoint n1 xs ys i (j + 1))

/-- Over each cell of the grid the component of the vector field along `e` varies by no more than `δ`. -/
def FieldVaries (n0 n1 : Nat) (xs ys : List ℝ) (v : ℝ × ℝ → ℝ × ℝ) (e : ℝ × ℝ) (δ : ℝ) : Prop :=
  ∀ i < n0 - 1, ∀ j < n1 - 1, ∀ p ∈ quadRegion (gridQuad n1 xs ys i j), ∀ q ∈ quadRegion (gridQuad n1 xs ys i j),
    |dotProd (v p) e - dotProd (v q) e| ≤ δ

/-- What the cells of the grid cover. -/
def cellsRegion (n0 n1 : Nat) (xs ys : List ℝ) : Set (ℝ × ℝ) := {p | ∃ i < n0 - 1, ∃ j < n1 - 1, p ∈ quadRegion (gridQuad n1 xs ys i j)}

end Sg.Spec
