import Verif.Spec.Cells
import Verif.Spec.AffineMap
/-
Grids whose lines are parallel to two directions and go through points of a lattice.
-/
namespace Sg.Spec

/-- Node `(i, j)` is the image of the integer point `(X i, Y j)` under an affine map; the lines are in order and cells
are not more than 700000 units long. -/
structure LatticeGrid (φ : AffineMap2) (dims : Nat × Nat) (X Y : Nat → ℤ) (x y : List ℝ) : Prop where
  two0 : 2 ≤ dims.1
  two1 : 2 ≤ dims.2
  lenX : dims.1 * dims.2 ≤ x.length
  lenY : dims.1 * dims.2 ≤ y.length
  incX : ∀ i, i + 1 < dims.1 → X i < X (i + 1) ∧ X (i + 1) - X i ≤ 700000
  incY : ∀ j, j + 1 < dims.2 → Y j < Y (j + 1) ∧ Y (j + 1) - Y j ≤ 700000
  node : ∀ i < dims.1, ∀ j < dims.2, gridNode dims x y i j = φ.app (X i, Y j)

/-- The units are large compared to the tolerances of the program: the cells of the lattice have an area of more than
1e-12, and points of the lattice a distance of more than 1e-6. -/
structure LargeUnits (φ : AffineMap2) : Prop where
  det : (1 / 1000000000000 : ℝ) < |φ.det|
  len : ∀ u v : ℤ, u ≠ 0 ∨ v ≠ 0 → (1 / 1000000000000 : ℝ) < (φ.a * u + φ.b * v) ^ 2 + (φ.c * u + φ.d * v) ^ 2

/-- The length of the part that two intervals have in common. -/
noncomputable def overlapLength (a b a' b' : ℝ) : ℝ := max 0 (min b b' - max a a')

/-- Two sets of lines over the same interval; inside of it no line of one is a line of the other. -/
structure Interleaved (n : Nat) (X : Nat → ℤ) (m : Nat) (X' : Nat → ℤ) : Prop where
  first : X 0 = X' 0
  last : X (n - 1) = X' (m - 1)
  apart : ∀ i, 0 < i → i + 1 < n → ∀ j < m, X i ≠ X' j

end Sg.Spec
