import Verif.Spec.FlowGrid
import Mathlib.Analysis.Convex.Segment
import Mathlib.Data.Real.Basic
import Mathlib.Algebra.BigOperators.Group.Finset.Basic
/-
Specification side: grids that are sheared products of two one-dimensional grids, and interpolation on them.
-/
namespace Sg.Spec

/-- 0 before `X i`, 1 after `X (i + 1)` and linear between. -/
noncomputable def ramp (X : Nat → ℝ) (i : Nat) (u : ℝ) : ℝ := max 0 (min 1 ((u - X i) / (X (i + 1) - X i)))

/-- Linear interpolation between `X 0`, ..., `X m` of the values `f 0`, ..., `f m`. -/
noncomputable def piecewiseLinear (m : Nat) (X : Nat → ℝ) (f : Nat → ℝ) (u : ℝ) : ℝ :=
  f 0 + ∑ i ∈ Finset.range m, (f (i + 1) - f i) * ramp X i u

/-- Linear interpolation along the first axis, then along the second, of the values `phi i j` at `(X i, Y j)`. -/
noncomputable def tensorInterp (n0 n1 : Nat) (X Y : Nat → ℝ) (phi : Nat → Nat → ℝ) (u v : ℝ) : ℝ :=
  piecewiseLinear (n1 - 1) Y (fun j => piecewiseLinear (n0 - 1) X (fun i => phi i j) u) v

/-- The grid of `n0` times `n1` nodes with node `(i, j)` at `c + X i • e0 + Y j • e1`. -/
structure TensorGrid (n0 n1 : Nat) (X Y : Nat → ℝ) (c e0 e1 : ℝ × ℝ) (xs ys : List ℝ) : Prop where
  incX : ∀ i, i + 1 < n0 → X i < X (i + 1)
  incY : ∀ j, j + 1 < n1 → Y j < Y (j + 1)
  det : e0.1 * e1.2 - e0.2 * e1.1 ≠ 0
  node : ∀ i j, i < n0 → j < n1 → (xs.getD (nodePlace n1 (i, j)) 0, ys.getD (nodePlace n1 (i, j)) 0) = c + X i • e0 + Y j • e1

/-- The segment from `(ua, va)` to `(ub, vb)` does not run along a line `u = X i` or `v = Y j` inside the grid. -/
def NotAlong (n0 n1 : Nat) (X Y : Nat → ℝ) (ua va ub vb : ℝ) : Prop :=
  (∀ i, 0 < i → i < n0 - 1 → ¬ (ua = X i ∧ ub = X i)) ∧ ∀ j, 0 < j → j < n1 - 1 → ¬ (va = Y j ∧ vb = Y j)

end Sg.Spec
