import Mathlib.Analysis.Convex.Hull
import Mathlib.Analysis.SpecialFunctions.Trigonometric.Basic
/-
Regular polygons.
-/
namespace Sg.Spec

/-- Corner number `j` of the regular polygon with `n` corners on the circle of radius `r` about the origin. -/
noncomputable def polygonCorner (n : Nat) (r : ℝ) (j : Nat) : ℝ × ℝ :=
  (r * Real.cos (2 * Real.pi * j / n), r * Real.sin (2 * Real.pi * j / n))

/-- The regular polygon with `n` corners on the circle of radius `r` about the origin. -/
def regularPolygon (n : Nat) (r : ℝ) : Set (ℝ × ℝ) := convexHull ℝ {p | ∃ j < n, p = polygonCorner n r j}

end Sg.Spec
