import Verif.Spec.RoundedFlow
import Verif.Spec.RoundedLine
import Verif.Spec.RoundedCells
import Verif.Spec.Whitney
/-
Specification side: flow interpolation in rounded arithmetic.
-/
namespace Sg.Spec
open Sg.LinearSolve

variable {rnd : ℝ → ℝ}

noncomputable section

/-- The segment from `a` to `b` meets the edge from `e0` to `e1` at an angle that is not very small, or the two, both made a little longer, are clearly
apart. -/
def SteadyEdge (Δ L : ℝ) (e0 e1 a b : ℝ × ℝ) : Prop :=
  (Δ * L ^ 2 ≤ |turn e0 e1 a b| ∧ ∃ p, p ∈ segment ℝ e0 e1 ∧ p ∈ segment ℝ a b) ∨
  ∀ s t : ℝ, -(2 * lineTol) ≤ s → s ≤ 1 + 2 * lineTol → -(2 * lineTol) ≤ t → t ≤ 1 + 2 * lineTol →
    lineTol * L < dist (e0 + s • (e1 - e0)) (a + t • (b - a))

/-- A fair cell and a segment, both of size `L` at most, for which rounding changes no decision: the ends are in the cell or clearly outside, and
each edge is crossed at an angle that is not very small, or not nearly. -/
structure FairFlow (Δ L R : ℝ) (q : Fin 4 → ℝ × ℝ) (a b : ℝ × ℝ) : Prop where
  cell : FairCell Δ L R q
  size : ∀ i j, dist (q i) (q j) ≤ L
  length : dist a b ≤ L
  proper : a ≠ b
  start : |a.1| ≤ R ∧ |a.2| ≤ R
  ends : ∀ p, p = a ∨ p = b → p ∈ quadRegion q ∨ ∃ i, BeyondEdge (8 * lineTol * L ^ 2) q i p p
  edges : ∀ i, SteadyEdge Δ L (q i) (q (i + 1)) a b

/-- Error of a computed point where the segment enters or leaves a cell. -/
def flowPointError (u L R : ℝ) : ℝ := 2 / 5 * lineTol * L + linePointError u L R

/-- Error of the flow through a cell, for numbers on the edges of size 1 in all. -/
def cellFlowError (u β Δ L R : ℝ) : ℝ :=
  5 * (projError u (indexError u β Δ (flowPointError u L R) L R) + 2 * u) + 24 / 5 * lineTol / Δ

/-- The size of the numbers on the edges of the cells, in all. -/
def edgeSize (n0 n1 : Nat) (x y : List ℝ) : ℝ :=
  ∑ i ∈ Finset.range (n0 - 1), ∑ j ∈ Finset.range (n1 - 1), ∑ e : Fin 4, |edgeData n1 x y i j e|

/-- Node `k` of a line of `n` nodes, each coordinate being moved by `pert`, as it is stored. -/
def storedNode (pert : Nat → Nat → Nat → Fl rnd) (n : Nat) (us vs : List (Fl rnd)) (k : Nat) : ℝ × ℝ :=
  ((us.getD k 0 + pert n 0 k).val, (vs.getD k 0 + pert n 1 k).val)

end

end Sg.Spec
