import Verif.Spec.Cells
import Verif.Spec.Whitney
/-
Specification side: a grid whose cells are the cells of another grid cut into parts.
-/
namespace Sg.Spec

/-- The `n'` cells `q'` are the `n` cells `q` cut into parts: cell `k` of the former is a part of cell `owner k` of the latter, and each cell is made up of its parts. -/
structure Refines (n : Nat) (q : Nat → Fin 4 → ℝ × ℝ) (n' : Nat) (q' : Nat → Fin 4 → ℝ × ℝ) (owner : Nat → Nat) : Prop where
  owned : ∀ k < n', owner k < n
  made : ∀ i < n, quadRegion (q i) = ⋃ k ∈ (Finset.range n').filter (fun k => owner k = i), quadRegion (q' k)

/-- The sides of cell `q'` are parallel to those of cell `q`. -/
def ParallelSides (q q' : Fin 4 → ℝ × ℝ) : Prop :=
  ∃ r s : ℝ, r ≠ 0 ∧ s ≠ 0 ∧ q' 1 - q' 0 = r • (q 1 - q 0) ∧ q' 3 - q' 0 = s • (q 3 - q 0)

/-- The integral along the segment from `a` to `b` of the field that has the numbers `E` on the edges of `q`. -/
noncomputable def edgeIntegral (q : Fin 4 → ℝ × ℝ) (E : Fin 4 → ℝ) (a b : ℝ × ℝ) : ℝ :=
  ∫ t in (0 : ℝ)..1, edgeField q E (a + t • (b - a)) (b - a)

/-- The numbers `E'` on the edges of `q'` are the integrals of the field that has the numbers `E` on the edges of `q`. -/
structure SameField (q : Fin 4 → ℝ × ℝ) (E : Fin 4 → ℝ) (q' : Fin 4 → ℝ × ℝ) (E' : Fin 4 → ℝ) : Prop where
  lower : E' 0 = edgeIntegral q E (q' 0) (q' 1)
  upper : E' 1 = edgeIntegral q E (q' 3) (q' 2)
  left : E' 2 = edgeIntegral q E (q' 0) (q' 3)
  right : E' 3 = edgeIntegral q E (q' 1) (q' 2)

end Sg.Spec
