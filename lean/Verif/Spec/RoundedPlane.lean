import Verif.Spec.Rounded
import Verif.Spec.Hull
/-
Specification side: points of the plane in rounded arithmetic.
-/
namespace Sg.Spec

variable {rnd : ℝ → ℝ}

noncomputable section

/-- A computed point as a point of the plane. -/
def valPt (p : Fl rnd × Fl rnd) : ℝ × ℝ := (p.1.val, p.2.val)

/-- A computed point is within `ρ` of a point of the plane, in each coordinate. -/
def NearPt (ρ : ℝ) (p' : Fl rnd × Fl rnd) (p : ℝ × ℝ) : Prop := |p'.1.val - p.1| ≤ ρ ∧ |p'.2.val - p.2| ≤ ρ

/-- The constants of the program are numbers of the arithmetic, or their inverses are. -/
structure KeepsConsts (rnd : ℝ → ℝ) : Prop where
  two : rnd 2 = 2
  half : rnd (1 / 2) = 1 / 2
  tera : rnd 1000000000000 = 1000000000000

/-- No degenerate situation is close to the tolerance 1e-12: different points are apart by more than twice that (distance
squared), and three points are on a line or span a triangle with more than twice that twice the area. -/
structure TolClean2 (P : Set (ℝ × ℝ)) : Prop where
  dist : ∀ p ∈ P, ∀ q ∈ P, p ≠ q → (2 / 1000000000000 : ℝ) < (q.1 - p.1) ^ 2 + (q.2 - p.2) ^ 2
  area : ∀ p ∈ P, ∀ q ∈ P, ∀ r ∈ P, area2 p q r = 0 ∨ (2 / 1000000000000 : ℝ) < |area2 p q r|

/-- The coordinates of the points differ by `D` at most. -/
def SpreadBy (D : ℝ) (P : Set (ℝ × ℝ)) : Prop := ∀ p ∈ P, ∀ q ∈ P, |p.1 - q.1| ≤ D ∧ |p.2 - q.2| ≤ D

/-- Error of a computed difference of coordinates, of a product of two differences, and of a sum of two such products: the points are
known within `ρ` and spread by `D`. -/
def diffError (u η ρ D : ℝ) : ℝ := 2 * ρ + u * (D + 2 * ρ) + η
def prodError (u η ρ D : ℝ) : ℝ :=
  2 * D * diffError u η ρ D + diffError u η ρ D ^ 2 + u * (D + diffError u η ρ D) ^ 2 + η
def sumError (u η ρ D : ℝ) : ℝ :=
  2 * prodError u η ρ D + (u * (D ^ 2 + prodError u η ρ D) + η) +
    (u * (2 * (D ^ 2 + prodError u η ρ D) + (u * (D ^ 2 + prodError u η ρ D) + η)) + η)

/-- Error of the computed area of the hull of `n` points, `A` being the exact area. -/
def areaError (u η ρ D : ℝ) (n : Nat) (A : ℝ) : ℝ :=
  (1 + u) / 2 * (n * (1 + u) ^ n * (sumError u η ρ D + 2 * u * A + η)) + u * A + η

/-- The errors are less than half of the tolerance 1e-12. -/
structure FineBy (rnd : ℝ → ℝ) (u η ρ D : ℝ) : Prop where
  rounds : Rounds rnd u η
  consts : KeepsConsts rnd
  near : 0 ≤ ρ
  size : 0 ≤ D
  small : sumError u η ρ D + (u / 1000000000000 + η) ≤ 1 / 2000000000000

end

end Sg.Spec
