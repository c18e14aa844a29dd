import Verif.Spec.Quad
/-
Vocabulary of the statements about a segment and a quadrilateral.
-/
namespace Sg.Spec

/-- `l'` is what `std::sort` makes of `l`: a rearrangement in which no element is less than an earlier one. -/
def SortsTo {K : Type} [LT K] (l l' : List K) : Prop := l'.Perm l ∧ l'.Pairwise fun x y => ¬ y < x

/-- The tolerance of the line intersector, 100 · 2⁻⁵² (about 2.2e-14). -/
noncomputable def lineTol : ℝ := 100 / 2 ^ 52

/-- The parameters of the part of the segment from `a` to `b` inside the quadrilateral. -/
def insideParams (q : Fin 4 → ℝ × ℝ) (a b : ℝ × ℝ) : Set ℝ := {t | 0 ≤ t ∧ t ≤ 1 ∧ a + t • (b - a) ∈ quadRegion q}

/-- The barycentric coordinates of `p` in the triangle `a`, `b`, `c`, if it is one, are not negative or are so by more
than the tolerance. -/
def LineClearOfSides (a b c p : ℝ × ℝ) : Prop :=
  area2 a b c ≠ 0 → ∀ u v w : ℝ, u + v + w = 1 → p = u • a + v • b + w • c →
    (0 ≤ u ∨ u < -lineTol) ∧ (0 ≤ v ∨ v < -lineTol) ∧ (0 ≤ w ∨ w < -lineTol)

/-- A parameter beyond an end of the segment by more than the tolerance. -/
def ClearlyOff (s : ℝ) : Prop := s < -lineTol ∨ 1 + lineTol ≤ s

/-- The edge from `e0` to `e1` is parallel to the line through `a` and `b`, or the crossing of their lines is on both
segments or clearly off one of them. -/
def LineClearCrossing (e0 e1 a b : ℝ × ℝ) : Prop :=
  (e1.1 - e0.1) * (b.2 - a.2) - (e1.2 - e0.2) * (b.1 - a.1) ≠ 0 →
  ∀ s t : ℝ, e0 + s • (e1 - e0) = a + t • (b - a) →
    (0 ≤ s ∧ s ≤ 1 ∧ 0 ≤ t ∧ t ≤ 1) ∨ ClearlyOff s ∨ ClearlyOff t

/-- No decision about the segment and the quadrilateral is closer than the tolerance.  A segment that is a point is allowed for
quadrilaterals without repeated neighbour nodes only. -/
structure ClearLine (q : Fin 4 → ℝ × ℝ) (a b : ℝ × ℝ) : Prop where
  start : LineClearOfSides (q 0) (q 1) (q 3) a ∧ LineClearOfSides (q 2) (q 3) (q 1) a
  finish : LineClearOfSides (q 0) (q 1) (q 3) b ∧ LineClearOfSides (q 2) (q 3) (q 1) b
  edges : ∀ i, LineClearCrossing (q i) (q (i + 1)) a b
  proper : ∀ i, ¬ (q i = q (i + 1) ∧ a = b)

end Sg.Spec
