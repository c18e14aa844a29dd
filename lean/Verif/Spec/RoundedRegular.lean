import Verif.Spec.RoundedQuad
/-
What the success of a search on a grid with straight equidistant lines needs in rounded arithmetic (property C157).
-/
namespace Sg.Spec
open Sg Sg.LinearSolve

noncomputable section

variable {rnd : ℝ → ℝ}

/-- The place of the index position `x` in the plane, by `x ↦ c + A x`. -/
def image (c : Fin 2 → ℝ) (A : Fin 2 → Fin 2 → ℝ) (x : Fin 2 → ℝ) (i : Fin 2) : ℝ := c i + A i 0 * x 0 + A i 1 * x 1

/-- The node of indices `m` lies within `κ` of `c + A m` (`κ` covers the rounding of the coordinates), with coordinates of size `M` at most.  The lines need not be
orthogonal nor parallel to the axes. -/
structure RegularGrid (dims : Fin 2 → Nat) (coords : Fin 2 → Nat → Fl rnd) (c : Fin 2 → ℝ) (A : Fin 2 → Fin 2 → ℝ) (κ M : ℝ) : Prop where
  near : ∀ p q, p < dims 0 → q < dims 1 → ∀ i, |(coords i (p * dims 1 + q)).val - image c A ![(p : ℝ), (q : ℝ)] i| ≤ κ
  size : ∀ i, ∀ m < dims 0 * dims 1, |(coords i m).val| ≤ M

/-- Error of the computed place of an index position. -/
def spotError (u κ M : ℝ) : ℝ := κ + ((1 + u) ^ 11 - 1) * M

/-- Error of the entries of the computed matrix of derivatives. -/
def slantError (u κ L M : ℝ) : ℝ := 5 * u * L + 11 * spotError u κ M

/-- The same with the error of the solver. -/
def systemError (u β κ L M : ℝ) : ℝ := slantError u κ L M + β * (L + slantError u κ L M)

/-- Error of the computed right-hand side, at a position whose indices are `δ` at most away from those of the target. -/
def shiftError (u κ ρ L M δ : ℝ) : ℝ := ρ + spotError u κ M + u * (2 * L * δ + ρ + spotError u κ M)

/-- Error of the computed step from there. -/
def stepError (u β Δ κ ρ L M δ : ℝ) : ℝ := 4 * (shiftError u κ ρ L M δ + 2 * δ * systemError u β κ L M) / (Δ * L)

/-- Error of the indices after this step, for `Y` nodes at most along an axis. -/
def landError (u β Δ κ ρ L M Y δ : ℝ) : ℝ := stepError u β Δ κ ρ L M δ + u * (Y + stepError u β Δ κ ρ L M δ)

/-- How far from the target the step ends, along an axis. -/
def missError (u β Δ κ ρ L M Y δ : ℝ) : ℝ := spotError u κ M + 2 * L * landError u β Δ κ ρ L M Y δ + ρ

/-- The arithmetic and the solver are fine enough for the grid: `u` is the unit roundoff, `β` the backward error of the solver, `L` the largest entry of `A`, `Δ L²` a
lower bound of its determinant, `κ` the error of the coordinates, `M` the size of the coordinates, `Y` the largest number of nodes along an
axis. -/
structure FineEnough (rnd : ℝ → ℝ) (g : Gels (Fl rnd)) (N : Nat) (u β Δ κ L M Y : ℝ) (A : Fin 2 → Fin 2 → ℝ) : Prop where
  rounds : Rounds rnd u 0
  ints : KeepsInts rnd N
  half : rnd (1 / 2) = 1 / 2
  unit : u ≤ 1 / 10
  stable : GelsStable g β
  pos : 0 ≤ β
  shape : 0 < Δ
  scale : 0 < L
  slopes : ∀ i j, |A i j| ≤ L
  area : Δ * L ^ 2 ≤ |A 0 0 * A 1 1 - A 0 1 * A 1 0|
  nodes : u * Y ≤ 1 / 8
  regular : 8 * systemError u β κ L M ≤ Δ * L

/-- Error of the indices after the first step from anywhere in the grid. -/
def firstError (u β Δ κ ρ L M Y : ℝ) : ℝ := landError u β Δ κ ρ L M Y Y

/-- Error of the indices after the second step. -/
def secondError (u β Δ κ ρ L M Y : ℝ) : ℝ := landError u β Δ κ ρ L M Y (firstError u β Δ κ ρ L M Y)

end

end Sg.Spec
