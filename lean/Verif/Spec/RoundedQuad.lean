import Verif.Spec.RoundedPlane
import Verif.Spec.Quad
import Verif.Model.LinearSolve
import Mathlib.Topology.MetricSpace.Pseudo.Constructions
/-
Specification side: quadrilaterals and the 2 x 2 systems of the geometry code in rounded arithmetic.
-/
namespace Sg.Spec
open Sg.LinearSolve

variable {rnd : ℝ → ℝ}

noncomputable section

/-- The arguments of `dgels` for two equations with two unknowns, matrix transposed. -/
structure Two (r : GelsArgs (Fl rnd)) : Prop where
  trans : r.trans = 'T'
  m : r.m = 2
  n : r.n = 2
  nrhs : r.nrhs = 1
  lda : r.lda = 2
  ldb : r.ldb = 2
  a : r.a.length = 4
  b : r.b.length = 2
  lwork : 4 ≤ r.lwork

/-- Coefficient of unknown `i` in equation `j` (Fortran storage of the transposed matrix), and the entries of a vector. -/
def coef (r : GelsArgs (Fl rnd)) (i j : Nat) : ℝ := (r.a.getD (i + j * 2) 0).val
def entry (b : List (Fl rnd)) (j : Nat) : ℝ := (b.getD j 0).val

/-- The solver is backward stable with the constant `β` on two equations with two unknowns: an answer is the exact solution of a system
with a matrix that is off by at most `β` times the largest entry, and if no answer is given, then one of these matrices is singular.
An equation or a second unknown that does not occur is reported, because the triangular factor then has a zero on its diagonal
in rounded arithmetic, too.  The zero matrix is not reported. -/
structure GelsStable (g : Gels (Fl rnd)) (β : ℝ) : Prop where
  sizes : ∀ r : GelsArgs (Fl rnd), (g r).a.length = r.a.length ∧ (g r).b.length = r.b.length
  solves : ∀ r, Two r → (∃ x ∈ r.a, x.val ≠ 0) → (g r).info = 0 → ∃ E : Nat → Nat → ℝ, (∀ S, (∀ x ∈ r.a, |x.val| ≤ S) → ∀ i j, |E i j| ≤ β * S) ∧
    ∀ j < 2, (coef r 0 j + E 0 j) * entry (g r).b 0 + (coef r 1 j + E 1 j) * entry (g r).b 1 = entry r.b j
  reported : ∀ r, Two r → (g r).info ≠ 0 → 0 < (g r).info ∧ ∃ E : Nat → Nat → ℝ,
    (∀ S, (∀ x ∈ r.a, |x.val| ≤ S) → ∀ i j, |E i j| ≤ β * S) ∧
    (coef r 0 0 + E 0 0) * (coef r 1 1 + E 1 1) - (coef r 1 0 + E 1 0) * (coef r 0 1 + E 0 1) = 0
  no_equation : ∀ r, Two r → (∃ x ∈ r.a, x.val ≠ 0) → (∃ j < 2, coef r 0 j = 0 ∧ coef r 1 j = 0) → 0 < (g r).info
  no_unknown : ∀ r, Two r → (∃ x ∈ r.a, x.val ≠ 0) → (∀ j < 2, coef r 1 j = 0) → 0 < (g r).info
  zero : ∀ r, Two r → (∀ x ∈ r.a, x.val = 0) → (g r).info = 0 ∧ ∀ j < 2, entry (g r).b j = 0

/-- The nodes of a quadrilateral as points of the plane. -/
def valQuad (q : Fin 4 → Fl rnd × Fl rnd) : Fin 4 → ℝ × ℝ := fun i => valPt (q i)

/-- The triangle is not too flat (twice its area is at least `Δ` times the square of the length of the sides at `a`), or `c` is the same
node as `a` and `b` is another. -/
def ShapedBy (Δ : ℝ) (a b c : ℝ × ℝ) : Prop :=
  (area2 a b c ≠ 0 ∧ Δ * dist a b ^ 2 ≤ |area2 a b c| ∧ Δ * dist a c ^ 2 ≤ |area2 a b c|) ∨ (a = c ∧ a ≠ b)

/-- A barycentric coordinate that is negative is so by twice the tolerance, 2e-12. -/
def ClearSign2 (u : ℝ) : Prop := 0 ≤ u ∨ u < -(2 / 1000000000000)
def ClearOfSides2 (a b c p : ℝ × ℝ) : Prop :=
  area2 a b c ≠ 0 → ∀ u v w : ℝ, u + v + w = 1 → p = u • a + v • b + w • c → ClearSign2 u ∧ ClearSign2 v ∧ ClearSign2 w

/-- A parameter along an edge is not between 0 and 1 and closer to them than twice the tolerance. -/
def ClearParam2 (s : ℝ) : Prop := s ≤ 0 ∨ (2 / 1000000000000 ≤ s ∧ s ≤ 1 - 2 / 1000000000000) ∨ 1 ≤ s

/-- Both points are on the same side of the line through `a0` and `a1`, by a margin. -/
def Beside (m : ℝ) (a0 a1 b0 b1 : ℝ × ℝ) : Prop :=
  (m < area2 a0 a1 b0 ∧ m < area2 a0 a1 b1) ∨ (area2 a0 a1 b0 < -m ∧ area2 a0 a1 b1 < -m)

/-- Two edges for which rounding does not matter: both are parallel to the same axis, or one is beside the line of the other by a margin,
or their directions are not too close and the crossing of their lines is clearly inside, at an end or outside of each of them. -/
def SafeEdges (Δ : ℝ) (a0 a1 b0 b1 : ℝ × ℝ) : Prop :=
  (a0.1 = a1.1 ∧ b0.1 = b1.1) ∨ (a0.2 = a1.2 ∧ b0.2 = b1.2) ∨
  Beside (Δ / 10 ^ 12 * (dist a0 a1 + dist b0 b1 + dist a0 b0) ^ 2) a0 a1 b0 b1 ∨
  Beside (Δ / 10 ^ 12 * (dist a0 a1 + dist b0 b1 + dist a0 b0) ^ 2) b0 b1 a0 a1 ∨
  ((a1.1 - a0.1) * (b1.2 - b0.2) - (a1.2 - a0.2) * (b1.1 - b0.1) ≠ 0 ∧
    Δ * dist a0 a1 ^ 2 ≤ |(a1.1 - a0.1) * (b1.2 - b0.2) - (a1.2 - a0.2) * (b1.1 - b0.1)| ∧
    Δ * dist b0 b1 ^ 2 ≤ |(a1.1 - a0.1) * (b1.2 - b0.2) - (a1.2 - a0.2) * (b1.1 - b0.1)| ∧
    ∀ s t : ℝ, a0 + s • (a1 - a0) = b0 + t • (b1 - b0) → ClearParam2 s ∧ ClearParam2 t)

/-- The two quadrilaterals are convex, the triangles they are cut into are not too flat, and no decision about them is closer than twice
the tolerance. -/
structure SafePair (Δ : ℝ) (q1 q2 : Fin 4 → ℝ × ℝ) : Prop where
  convex : ConvexQuad q1 ∧ ConvexQuad q2
  shaped1 : ShapedBy Δ (q1 0) (q1 1) (q1 3) ∧ ShapedBy Δ (q1 2) (q1 3) (q1 1)
  shaped2 : ShapedBy Δ (q2 0) (q2 1) (q2 3) ∧ ShapedBy Δ (q2 2) (q2 3) (q2 1)
  nodes12 : ∀ i, ClearOfSides2 (q2 0) (q2 1) (q2 3) (q1 i) ∧ ClearOfSides2 (q2 2) (q2 3) (q2 1) (q1 i)
  nodes21 : ∀ i, ClearOfSides2 (q1 0) (q1 1) (q1 3) (q2 i) ∧ ClearOfSides2 (q1 2) (q1 3) (q1 1) (q2 i)
  edges : ∀ i j, SafeEdges Δ (q1 i) (q1 (i + 1)) (q2 j) (q2 (j + 1))

/-- Relative error of the solution of two equations that are not too close to dependent. -/
def solveError (u β Δ : ℝ) : ℝ := 9 * (β * (1 + u) + u) / Δ

/-- Arithmetic and solver are accurate enough for the tolerance 1e-12. -/
structure SolvesFinely (rnd : ℝ → ℝ) (g : Gels (Fl rnd)) (u β Δ : ℝ) : Prop where
  rounds : Rounds rnd u 0
  consts : KeepsConsts rnd
  unit : u ≤ 1 / 10 ^ 14
  pos : 0 ≤ β
  shape : 0 < Δ
  small : solveError u β Δ ≤ 4 / 10 ^ 13
  stable : GelsStable g β

/-- Error of the coordinates of a computed crossing, for an edge of length `L` at most and nodes with coordinates of size `R` at most. -/
def crossError (u β Δ L R : ℝ) : ℝ := L * (solveError u β Δ + 4 * u) + u * R

/-- The coordinates of the nodes are `R` at most in size, and those of two nodes differ by `L` at most. -/
def SizedBy (L R : ℝ) (q : Fin 4 → ℝ × ℝ) : Prop := ∀ i j, |(q i).1| ≤ R ∧ |(q i).2| ≤ R ∧ |(q i).1 - (q j).1| ≤ L ∧ |(q i).2 - (q j).2| ≤ L

end

end Sg.Spec
