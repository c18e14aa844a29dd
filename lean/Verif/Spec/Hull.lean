import Mathlib.Analysis.Convex.Hull
import Mathlib.Topology.Instances.Real.Lemmas
import Mathlib.Topology.MetricSpace.Pseudo.Constructions
/-
Vocabulary of the statements about areas of planar point sets.
-/
namespace Sg.Spec

/-- Twice the signed area of the triangle `p`, `q`, `r`. -/
def area2 (p q r : ℝ × ℝ) : ℝ := (q.1 - p.1) * (r.2 - p.2) - (q.2 - p.2) * (r.1 - p.1)

/-- No degenerate situation is hidden by the tolerance 1e-12: different points are more than that apart (distance
squared), and three points are on a line or span a triangle with more than that twice the area. -/
structure TolClean (P : Set (ℝ × ℝ)) : Prop where
  dist : ∀ p ∈ P, ∀ q ∈ P, p ≠ q → (1 / 1000000000000 : ℝ) < (q.1 - p.1) ^ 2 + (q.2 - p.2) ^ 2
  area : ∀ p ∈ P, ∀ q ∈ P, ∀ r ∈ P, area2 p q r = 0 ∨ (1 / 1000000000000 : ℝ) < |area2 p q r|

/-- No point lies in the interior of the hull. -/
def ConvexPosition (P : Set (ℝ × ℝ)) : Prop := ∀ p ∈ P, p ∉ interior (convexHull ℝ P)

/-- All the points lie on one line. -/
def Collinear2 (P : Set (ℝ × ℝ)) : Prop := ∀ p ∈ P, ∀ q ∈ P, ∀ r ∈ P, area2 p q r = 0

/-- The points of a list, as a set. -/
def ptsOf (l : List (ℝ × ℝ)) : Set (ℝ × ℝ) := {p | p ∈ l}

end Sg.Spec
