import Verif.Spec.Stretched
/-
Specification side: size of the cells of a grid, smoothness of a field.
-/
namespace Sg.Spec

/-- No two of the four corners of a cell of the `dims 0` times `dims 1` grid are farther apart than `h`. -/
def CellsWithin (dims : Fin 2 → Nat) (coords : Fin 2 → Nat → ℝ) (h : ℝ) : Prop :=
  ∀ a b, a + 1 < dims 0 → b + 1 < dims 1 → ∀ p q : Nat × Nat,
    (p.1 = a ∨ p.1 = a + 1) → (p.2 = b ∨ p.2 = b + 1) → (q.1 = a ∨ q.1 = a + 1) → (q.2 = b ∨ q.2 = b + 1) →
    distance (fun i => coords i (p.1 * dims 1 + p.2)) (fun i => coords i (q.1 * dims 1 + q.2)) ≤ h

/-- The field is approximated at `x` by a linear function of slope `L` at most, with an error of at most `M` times the square of
the distance. -/
def SmoothAt (φ : (Fin 2 → ℝ) → ℝ) (x : Fin 2 → ℝ) (L M : ℝ) : Prop :=
  ∃ G : Fin 2 → ℝ, Real.sqrt (∑ i, G i ^ 2) ≤ L ∧ ∀ y, |φ y - φ x - ∑ i, G i * (y i - x i)| ≤ M * distance y x ^ 2

end Sg.Spec
