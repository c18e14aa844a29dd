import Mathlib.Data.List.Forall2
import Mathlib.Data.Finset.Card
import Mathlib.Data.Int.Interval
/-
Specification vocabulary for index boxes, independent of the model.
A box is a list of axes `(beg, end)`; a tuple is a list of integers.
-/
namespace Sg.Spec

/-- The tuple `t` lies in the box: same number of axes and `beg ≤ t < end` on each. -/
def InBox (axes : List (Int × Int)) (t : List Int) : Prop :=
  List.Forall₂ (fun ax x => ax.1 ≤ x ∧ x < ax.2) axes t

/-- Every axis has at least one index. -/
def NonEmptyAxes (axes : List (Int × Int)) : Prop := ∀ ax ∈ axes, ax.1 < ax.2

/-- Ends of the axes are C `int` values. -/
def IntAxes (axes : List (Int × Int)) : Prop :=
  ∀ ax ∈ axes, (-2147483648 ≤ ax.1 ∧ ax.1 ≤ 2147483647) ∧ (-2147483648 ≤ ax.2 ∧ ax.2 ≤ 2147483647)

/-- Number of tuples: product of the extents. -/
def volume (axes : List (Int × Int)) : Int := (axes.map (fun ax => ax.2 - ax.1)).prod

end Sg.Spec
