import Verif.Model.LinearSolve
import Mathlib.LinearAlgebra.Matrix.Determinant.Basic
/-
The documented contract of LAPACK `dgels` in exact arithmetic, as far as the code relies on it.
Fortran storage: element (i,j) of the m x n matrix is `a[i + j*lda]`.
-/
namespace Sg.Spec
open Sg.LinearSolve

variable {K : Type} [Field K]

/-- Fortran (column-major) view of the matrix argument. -/
def fortran (a : List K) (lda : Nat) (i j : Nat) : K := a.getD (i + j * lda) 0

/-- Contract of `dgels` for `TRANS = 'T'` and one right-hand side.
* `sizes`: the routine writes into the caller's arrays, it cannot resize them.
* `bad_ldb`: leading dimension `LDB` must be at least `max(1,M,N)`; otherwise `INFO = -8` and nothing
  is changed (arguments 1-7 being legal).
* `square_ok`: for a non-singular square matrix `INFO = 0`, and the solution `x` overwrites `B`:
  `sum_i A(i,j) x_i = b_j`.
* `square_singular`: for a singular matrix that is not zero, `INFO > 0`.
* `tall`: for `M > N`, a matrix that is not zero and `INFO = 0`, the first `M` entries of `B` become the minimum norm
  solution of `A^T x = b` (`N` equations).
* `zero`: for a zero matrix the zero solution is returned and `INFO = 0`, whatever the right-hand side ("Matrix all zero.
  Return zero solution." in the source of the routine). -/
structure GelsContract [LinearOrder K] (g : Gels K) : Prop where
  sizes : ∀ r : GelsArgs K, (g r).a.length = r.a.length ∧ (g r).b.length = r.b.length
  bad_ldb : ∀ r : GelsArgs K, r.trans = 'T' → r.nrhs = 1 → max 1 r.m ≤ r.lda →
    r.ldb < max 1 (max r.m r.n) → (g r).info = -8 ∧ (g r).b = r.b ∧ (g r).a = r.a
  square_ok : ∀ r : GelsArgs K, r.trans = 'T' → r.nrhs = 1 → r.m = r.n → 1 ≤ r.n → r.lda = r.m →
    r.ldb = r.m → r.a.length = r.lda * r.n → r.b.length = r.ldb →
    max 1 (r.n + max r.n 1) ≤ r.lwork →
    (Matrix.of fun i j : Fin r.n => fortran r.a r.lda i j).det ≠ 0 →
    (g r).info = 0 ∧
    ∀ j < r.n, ∑ i ∈ Finset.range r.n, fortran r.a r.lda i j * (g r).b.getD i 0 = r.b.getD j 0
  square_singular : ∀ r : GelsArgs K, r.trans = 'T' → r.nrhs = 1 → r.m = r.n → 1 ≤ r.n → r.lda = r.m →
    r.ldb = r.m → r.a.length = r.lda * r.n → r.b.length = r.ldb →
    max 1 (r.n + max r.n 1) ≤ r.lwork →
    (∃ x ∈ r.a, x ≠ 0) → (Matrix.of fun i j : Fin r.n => fortran r.a r.lda i j).det = 0 → 0 < (g r).info
  tall : ∀ r : GelsArgs K, r.trans = 'T' → r.nrhs = 1 → r.n < r.m → 1 ≤ r.n → r.lda = r.m →
    r.ldb = r.m → r.a.length = r.lda * r.n → r.b.length = r.ldb →
    max 1 (r.n + max r.n 1) ≤ r.lwork → (∃ x ∈ r.a, x ≠ 0) → (g r).info = 0 →
    (∀ j < r.n, ∑ i ∈ Finset.range r.m, fortran r.a r.lda i j * (g r).b.getD i 0 = r.b.getD j 0) ∧
    ∀ y : Nat → K, (∀ j < r.n, ∑ i ∈ Finset.range r.m, fortran r.a r.lda i j * y i = r.b.getD j 0) →
      ∑ i ∈ Finset.range r.m, (g r).b.getD i 0 ^ 2 ≤ ∑ i ∈ Finset.range r.m, y i ^ 2
  zero : ∀ r : GelsArgs K, r.trans = 'T' → r.nrhs = 1 → r.n ≤ r.m → 1 ≤ r.n → r.lda = r.m →
    r.ldb = r.m → r.a.length = r.lda * r.n → r.b.length = r.ldb →
    max 1 (r.n + max r.n 1) ≤ r.lwork → (∀ x ∈ r.a, x = 0) → (g r).info = 0 ∧ (g r).b = List.replicate r.b.length 0

end Sg.Spec
