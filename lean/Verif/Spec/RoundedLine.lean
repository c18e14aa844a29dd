import Verif.Spec.RoundedQuad
import Verif.Spec.Line
/-
Specification side: a segment and a quadrilateral in rounded arithmetic.
-/
namespace Sg.Spec
open Sg.LinearSolve

variable {rnd : ℝ → ℝ}

noncomputable section

/-- Arithmetic and solver are accurate enough for the tolerance 100 · 2⁻⁵². -/
structure SolvesLine (rnd : ℝ → ℝ) (g : Gels (Fl rnd)) (u β Δ : ℝ) : Prop where
  solves : SolvesFinely rnd g u β Δ
  unit : u ≤ 1 / 2 ^ 53
  shape : Δ ≤ 1
  small : solveError u β Δ ≤ 2 / 5 * lineTol

/-- Twice the area that the segment from `a` to `b` spans with the edge from `e0` to `e1`. -/
def turn (e0 e1 a b : ℝ × ℝ) : ℝ := (e1.1 - e0.1) * (b.2 - a.2) - (e1.2 - e0.2) * (b.1 - a.1)

/-- Both ends of the segment are on the side of the edge `i` where the quadrilateral is, or on its line. -/
def WithinEdge (q : Fin 4 → ℝ × ℝ) (i : Fin 4) (a b : ℝ × ℝ) : Prop :=
  ((∀ j, 0 ≤ area2 (q i) (q (i + 1)) (q j)) ∧ 0 ≤ area2 (q i) (q (i + 1)) a ∧ 0 ≤ area2 (q i) (q (i + 1)) b) ∨
  ((∀ j, area2 (q i) (q (i + 1)) (q j) ≤ 0) ∧ area2 (q i) (q (i + 1)) a ≤ 0 ∧ area2 (q i) (q (i + 1)) b ≤ 0)

/-- Both ends of the segment are beyond the edge `i`, by a margin. -/
def BeyondEdge (m : ℝ) (q : Fin 4 → ℝ × ℝ) (i : Fin 4) (a b : ℝ × ℝ) : Prop :=
  ((∀ j, 0 ≤ area2 (q i) (q (i + 1)) (q j)) ∧ area2 (q i) (q (i + 1)) a < -m ∧ area2 (q i) (q (i + 1)) b < -m) ∨
  ((∀ j, area2 (q i) (q (i + 1)) (q j) ≤ 0) ∧ m < area2 (q i) (q (i + 1)) a ∧ m < area2 (q i) (q (i + 1)) b)

/-- A convex quadrilateral and a segment, both of size `L` at most, such that the triangles are not too flat and no edge is crossed at
a very small angle: the directions are not too close, or both ends are on the inner side, or clearly beyond the edge. -/
structure FairLine (Δ L : ℝ) (q : Fin 4 → ℝ × ℝ) (a b : ℝ × ℝ) : Prop where
  convex : ConvexQuad q
  size : ∀ i j, dist (q i) (q j) ≤ L
  length : dist a b ≤ L
  proper : a ≠ b
  shaped : (area2 (q 0) (q 1) (q 3) = 0 ∨ Δ * L ^ 2 ≤ |area2 (q 0) (q 1) (q 3)|) ∧
    (area2 (q 2) (q 3) (q 1) = 0 ∨ Δ * L ^ 2 ≤ |area2 (q 2) (q 3) (q 1)|)
  edges : ∀ i, Δ * L ^ 2 ≤ |turn (q i) (q (i + 1)) a b| ∨ WithinEdge q i a b ∨ BeyondEdge (12 * lineTol * L ^ 2) q i a b

/-- Error of the computed parameters. -/
def clipError (Δ : ℝ) : ℝ := 8 * lineTol / Δ

/-- Error of the coordinates of a computed point of a segment of length `L` at coordinates up to `R`, at a given parameter. -/
def linePointError (u L R : ℝ) : ℝ := u * (4 * L + R)

end

end Sg.Spec
