import Verif.Spec.Stretched
import Mathlib.Analysis.Normed.Module.Basic
import Mathlib.Data.Fin.Tuple.Basic
/-
Specification side: interpolation along each axis in turn, and grids that are nearly regular.
-/
namespace Sg.Spec

/-- Linear interpolation between the values `f 0`, ..., `f (m - 1)` at the indices 0, ..., `m - 1`. -/
noncomputable def polyline {V : Type} [AddCommGroup V] [Module ℝ V] (m : Nat) (f : Nat → V) (u : ℝ) : V :=
  f 0 + ∑ k ∈ Finset.range (m - 1), ramp (fun k => (k : ℝ)) k u • (f (k + 1) - f k)

/-- Linear interpolation along each axis in turn of the values at the nodes of a grid with `dims` nodes. -/
noncomputable def interpolated {V : Type} [AddCommGroup V] [Module ℝ V] : {n : Nat} → (Fin n → Nat) → ((Fin n → Nat) → V) → (Fin n → ℝ) → V
  | 0, _, φ, _ => φ fun i => i.elim0
  | _ + 1, dims, φ, u => polyline (dims 0) (fun k =>
      interpolated (fun i => dims i.succ) (fun m => φ (Fin.cons k m)) (fun i => u i.succ)) (u 0)

/-- The place of index position `u` in a grid. -/
noncomputable def gridPlace {n : Nat} (dims : Fin n → Nat) (coords : Fin n → Nat → ℝ) (u : Fin n → ℝ) : Fin n → ℝ :=
  fun i => interpolated dims (fun m => coords i (rowMajor dims m)) u

/-- The part of the grid with node indices from `lo` to `hi` is nearly regular: each edge along axis `j` differs from column `j` of the matrix `A`
by at most `ε` times the length of this column, and the columns are perpendicular. -/
structure NearlyRegular {n : Nat} (dims lo hi : Fin n → Nat) (ε : ℝ) (A : Matrix (Fin n) (Fin n) ℝ) (coords : Fin n → Nat → ℝ) : Prop where
  perp : Perpendicular A
  det : A.det ≠ 0
  edge : ∀ m : Fin n → Nat, (∀ i, lo i ≤ m i ∧ m i ≤ hi i) → ∀ j, m j < hi j →
    distance (fun i => coords i (rowMajor dims (Function.update m j (m j + 1))) - coords i (rowMajor dims m)) (fun i => A i j) ≤
      ε * Real.sqrt (∑ i, A i j ^ 2)

end Sg.Spec
