import Verif.Spec.Tensor
import Mathlib.Analysis.Convex.Function
/-
Specification side: functions on a sheared product grid whose second derivatives along the two axes are bounded.
-/
namespace Sg.Spec

/-- The second derivative of `f` is at most `M` in size on `[a, b]`, said without derivatives: adding a parabola of second
derivative `M` to `f` or to `-f` makes it convex. -/
structure BendsAtMost (M : ℝ) (f : ℝ → ℝ) (a b : ℝ) : Prop where
  up : ConvexOn ℝ (Set.Icc a b) fun t => M / 2 * t ^ 2 + f t
  down : ConvexOn ℝ (Set.Icc a b) fun t => M / 2 * t ^ 2 - f t

/-- On the grid, the second derivative of `ψ` is at most `M0` in size along the first axis and `M1` along the second. -/
structure BendsOn (n0 n1 : Nat) (X Y : Nat → ℝ) (c e0 e1 : ℝ × ℝ) (ψ : ℝ × ℝ → ℝ) (M0 M1 : ℝ) : Prop where
  first : ∀ v, Y 0 ≤ v → v ≤ Y (n1 - 1) → BendsAtMost M0 (fun u => ψ (c + u • e0 + v • e1)) (X 0) (X (n0 - 1))
  second : ∀ u, X 0 ≤ u → u ≤ X (n0 - 1) → BendsAtMost M1 (fun v => ψ (c + u • e0 + v • e1)) (Y 0) (Y (n1 - 1))

/-- No cell is wider than `h0` along the first axis and `h1` along the second. -/
structure WidthsAtMost (n0 n1 : Nat) (X Y : Nat → ℝ) (h0 h1 : ℝ) : Prop where
  first : ∀ i, i + 1 < n0 → X (i + 1) - X i ≤ h0
  second : ∀ j, j + 1 < n1 → Y (j + 1) - Y j ≤ h1

end Sg.Spec
