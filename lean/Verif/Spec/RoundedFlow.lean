import Verif.Spec.RoundedQuad
import Verif.Spec.Flows
/-
Specification side: searches of index positions in one cell, and projections, in rounded arithmetic.
-/
namespace Sg.Spec
open Sg.LinearSolve

variable {rnd : ℝ → ℝ}

noncomputable section

/-- The point of a quadrilateral at index coordinates. -/
def pointAt (q : Fin 4 → ℝ × ℝ) (x : Fin 2 → ℝ) : ℝ × ℝ := (bilin (fun i => (q i).1) x, bilin (fun i => (q i).2) x)

/-- A parallelogram with sides of length `L` at most, twice the area of a half being at least `Δ L^2`, and coordinates of size `R` at most. -/
structure FairCell (Δ L R : ℝ) (q : Fin 4 → ℝ × ℝ) : Prop where
  closed : q 0 + q 2 = q 1 + q 3
  side1 : |(q 1).1 - (q 0).1| ≤ L ∧ |(q 1).2 - (q 0).2| ≤ L
  side3 : |(q 3).1 - (q 0).1| ≤ L ∧ |(q 3).2 - (q 0).2| ≤ L
  area : Δ * L ^ 2 ≤ |area2 (q 0) (q 1) (q 3)|
  coords : ∀ i, |(q i).1| ≤ R ∧ |(q i).2| ≤ R

/-- Relative error of an interpolated coordinate. -/
def coordError (u : ℝ) : ℝ := (1 + u) ^ 11 - 1

/-- Error of an entry of the Jacobian. -/
def slopeError (u L R : ℝ) : ℝ := 2 * (coordError u * R) + ((1 + u) ^ 2 - 1) * (L + 2 * (coordError u * R))

/-- Error of the vector from the middle of the cell to the point looked for, which is known up to `ρ`. -/
def offsetError (u ρ L R : ℝ) : ℝ := ρ + coordError u * R + u * (L + ρ + coordError u * R)

/-- Error of the matrix that is solved with, in all. -/
def matrixError (u β L R : ℝ) : ℝ := slopeError u L R + β * (L + slopeError u L R)

/-- Error of an index found. -/
def indexError (u β Δ ρ L R : ℝ) : ℝ := (1 + u) * (4 * (offsetError u ρ L R + matrixError u β L R) / (Δ * L)) + u

/-- Arithmetic and solver are accurate enough for searches in cells of the size `L` with coordinates of size `R`, for points that are known up
to `ρ`: the matrices are far from singular, the point found passes the test with the tolerance 1e-10, and the point looked for passes the test that it
is in the box of the cell, enlarged by 100 times the machine epsilon. -/
structure SearchesFinely (rnd : ℝ → ℝ) (g : Gels (Fl rnd)) (u β Δ ρ L R : ℝ) : Prop where
  rounds : Rounds rnd u 0
  ints : KeepsInts rnd 10000000000
  half : rnd (1 / 2) = 1 / 2
  unit : u ≤ 1 / 10 ^ 14
  pos : 0 ≤ β
  shape : 0 < Δ
  size : 0 < L
  point : 0 ≤ ρ
  stable : GelsStable g β
  regular : 8 * matrixError u β L R ≤ Δ * L
  found : 3 * (coordError u * R + 2 * L * indexError u β Δ ρ L R + ρ) ≤ 1 / 10 ^ 10
  inside : ρ + u * (R + 1) ≤ 2 / 10 ^ 14

/-- The integral of the basis function of each edge along the segment between two index positions. -/
def projAt (xa xb : Fin 2 → ℝ) (e : Fin 4) : ℝ :=
  match e with
  | 0 => (xb 0 - xa 0) * (1 - (xa 1 + xb 1) / 2)
  | 1 => (xb 0 - xa 0) * ((xa 1 + xb 1) / 2)
  | 2 => (xb 1 - xa 1) * (1 - (xa 0 + xb 0) / 2)
  | 3 => (xb 1 - xa 1) * ((xa 0 + xb 0) / 2)

/-- Error of a projection, for indices with the error `ε`. -/
def projError (u ε : ℝ) : ℝ := 3 * ε + 8 * u

end

end Sg.Spec
