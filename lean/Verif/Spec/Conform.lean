import Verif.Spec.Cells
import Verif.Model.Triangulate
/-
Vocabulary of the statements about regridding to the same grid.
-/
namespace Sg.Spec
open Sg.Triangulate

/-- Every corner is a proper one. -/
def StrictQuad (q : Fin 4 → ℝ × ℝ) : Prop := ∀ i, area2 (q i) (q (i + 1)) (q (i + 2)) ≠ 0

/-- The two cells have an edge in common, and nothing else. -/
def ShareEdge (d s : Fin 4 → ℝ × ℝ) : Prop :=
  ∃ i j, (d i = s j ∧ d (i + 1) = s (j + 1) ∨ d i = s (j + 1) ∧ d (i + 1) = s j) ∧
    quadRegion d ∩ quadRegion s ⊆ segment ℝ (d i) (d (i + 1))

/-- The cells of a grid fit together: two of them have an edge, a corner or nothing in common. -/
def Conforming (dims : Nat × Nat) (x y : List ℝ) : Prop :=
  ∀ i < cellCount dims, ∀ j < cellCount dims, i ≠ j → ShareEdge (gridCell dims x y i) (gridCell dims x y j) ∨
    (quadRegion (gridCell dims x y i) ∩ quadRegion (gridCell dims x y j)).Subsingleton

open Classical in
/-- Points that are equally far from the centre stay in the order they had. -/
def KeepsTies (points sorted : List (ℝ × ℝ)) : Prop :=
  ∀ r, sorted.filter (fun p => decide (distanceSquareFromCenter (gravityCenter points) p = r)) =
    points.filter fun p => decide (distanceSquareFromCenter (gravityCenter points) p = r)

/-- What the sort of the common libraries does: up to 16 elements are sorted by insertion, which keeps ties in order. -/
def StableShort (sort : List (ℝ × ℝ) → List (ℝ × ℝ)) : Prop := ∀ l, l.length ≤ 16 → KeepsTies l (sort l)

end Sg.Spec
