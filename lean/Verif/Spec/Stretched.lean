import Verif.Spec.Interp
import Verif.Spec.Tensor
import Mathlib.Analysis.Real.Sqrt
import Mathlib.LinearAlgebra.Matrix.NonsingularInverse
/-
Specification side: grids whose spacing varies along the axes.
-/
namespace Sg.Spec

/-- The place, along one axis with `m` nodes at `X 0`, ..., `X (m - 1)`, of the (fractional) index `u`: linear
interpolation between the nodes. -/
noncomputable def axisPlace (m : Nat) (X : Nat → ℝ) (u : ℝ) : ℝ := piecewiseLinear (m - 1) (fun k => (k : ℝ)) X u

/-- The nodes of the grid are `c + X₀(m₀) a₀ + X₁(m₁) a₁ + ...`, where `a_j` is column `j` of the matrix `A`, the columns
are linearly independent, and along each axis the largest spacing is at most `r` times the smallest. -/
structure StretchedGrid {n : Nat} (dims : Fin n → Nat) (r : ℝ) (X : Fin n → Nat → ℝ) (c : Fin n → ℝ)
    (A : Matrix (Fin n) (Fin n) ℝ) (coords : Fin n → Nat → ℝ) : Prop where
  node : ∀ m : Fin n → Nat, (∀ i, m i < dims i) → ∀ i, coords i (rowMajor dims m) = c i + ∑ j, A i j * X j (m j)
  det : A.det ≠ 0
  width : ∀ j, ∃ w > 0, ∀ k, k + 1 < dims j → w ≤ X j (k + 1) - X j k ∧ X j (k + 1) - X j k ≤ r * w

/-- The directions of the axes are perpendicular to each other. -/
def Perpendicular {n : Nat} (A : Matrix (Fin n) (Fin n) ℝ) : Prop := ∀ j k, j ≠ k → ∑ i, A i j * A i k = 0

/-- The point of the grid with (fractional) indices `u`. -/
noncomputable def stretchedPlace {n : Nat} (dims : Fin n → Nat) (X : Fin n → Nat → ℝ) (c : Fin n → ℝ)
    (A : Matrix (Fin n) (Fin n) ℝ) (u : Fin n → ℝ) : Fin n → ℝ :=
  fun i => c i + ∑ j, A i j * axisPlace (dims j) (X j) (u j)

/-- Distance between two points. -/
noncomputable def distance {n : Nat} (p q : Fin n → ℝ) : ℝ := Real.sqrt (∑ i, (p i - q i) ^ 2)

end Sg.Spec
