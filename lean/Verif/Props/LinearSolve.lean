import Verif.Proof.LinearSolve
import Mathlib.Algebra.Order.BigOperators.Ring.Finset
import Mathlib.Algebra.Order.BigOperators.Group.Finset
import Mathlib.Tactic.FieldSimp
/-
Properties C10-C13 of the linear solver.  `g` is any linear algebra library meeting the documented
contract of `dgels` (`Verif/Spec/Gels.lean`).
-/
namespace Sg.Props
open Sg Sg.LinearSolve Sg.Spec

variable {K : Type} [Field K] [LinearOrder K]

/-- The three calls a user makes: set the matrix, set the right-hand side, solve. -/
def setAndSolve (g : Gels K) (s : Solver K) (a b : Nat → K) : Cxx (Solver K × Int) := do
  let s ← s.setMatrix a
  let s ← s.setRightHandSide b
  s.solve g

/-- One call of the interface. -/
inductive SolverOp (K : Type)
  | setMatrix (a : Nat → K)
  | setRightHandSide (b : Nat → K)
  | solve

/-- Effect of one call. -/
def SolverOp.exec (g : Gels K) (s : Solver K) : SolverOp K → Cxx (Solver K)
  | .setMatrix a => s.setMatrix a
  | .setRightHandSide b => s.setRightHandSide b
  | .solve => do let r ← s.solve g; return r.1

/-- A sequence of calls. -/
def runOps (g : Gels K) : Solver K → List (SolverOp K) → Cxx (Solver K)
  | s, [] => .ok s
  | s, op :: ops => do let s' ← op.exec g s; runOps g s' ops

/-- The state just before the call of `dgels`. -/
theorem before_gels (s : Solver K) (hs : WF s) (a b : Nat → K) (g : Gels K)
    (h1 : 1 ≤ s.nrow) (h2 : 1 ≤ s.ncol) :
    ∃ t : Solver K, t = { s with
        mat := (List.range (s.nrow * s.ncol)).map a
        matOri := (List.range (s.nrow * s.ncol)).map a
        x := (List.range s.nrow).map b ++ s.x.drop s.nrow
        b := (List.range s.nrow).map b } ∧ WF t ∧ setAndSolve g s a b = t.solve g ∧
      t.solve g = .ok ({ t with
        mat := (g t.gelsArgs).a
        x := (g t.gelsArgs).b },
        (g t.gelsArgs).info) := by
  refine ⟨_, rfl, ?_, ?_, ?_⟩
  · have hx := hs.x
    constructor <;> simp
    omega
  · unfold setAndSolve
    rw [setMatrix_ok s hs a]
    have wf1 : WF { s with mat := (List.range (s.nrow * s.ncol)).map a,
                           matOri := (List.range (s.nrow * s.ncol)).map a } :=
      ⟨by simp, by simp, hs.b, hs.x⟩
    simp only [bind, Except.bind]
    rw [setRhs_ok _ wf1 b]
  · have hp : 0 < s.nrow * s.ncol := Nat.mul_pos h1 h2
    unfold Solver.solve
    rw [vget_ok (by simpa using hp), vget_ok (by simp; omega)]
    rfl

/-- **C10, partial** for every size `n ≥ 1`, row-major matrix `a` that is not zero and right-hand side `b`: the code returned by
`solve` is 0 exactly if the user's matrix is non-singular, and then the solution satisfies the user's
equations `sum_j a[i*n+j] x[j] = b[i]`.  No call is undefined.  Missing: the zero matrix, see `C10_zero_refuted`. -/
theorem C10_square_solve_partial (g : Gels K) (hg : GelsContract g) (n : Nat) (hn : 1 ≤ n) (a b : Nat → K)
    (hne : ∃ k < n * n, a k ≠ 0) :
    ∃ s code, setAndSolve g (LinearSolve.new n n) a b = .ok (s, code) ∧
      (code = 0 ↔ (Matrix.of fun i j : Fin n => a (i * n + j)).det ≠ 0) ∧
      (code = 0 → ∀ i < n, ∑ j ∈ Finset.range n, a (i * n + j) * s.getSolution.getD j 0 = b i) := by
  obtain ⟨t, ht, hwf, e1, e2⟩ := before_gels (LinearSolve.new n n) (wf_new n n) a b g hn hn
  have hnr : t.nrow = n := by rw [ht]; rfl
  have hnc : t.ncol = n := by rw [ht]; rfl
  have hmat : t.mat = (List.range (n * n)).map a := by rw [ht]; rfl
  have hx : t.x = (List.range n).map b := by
    rw [ht]; simp [LinearSolve.new]
  have hbl : t.b.length = n := by rw [hwf.b, hnr]
  have hlw : t.lwork = max 1 (n + max n 1) := by rw [ht]; simp [LinearSolve.new]
  refine ⟨_, _, by rw [e1, e2], ?_⟩
  have hargs : t.gelsArgs = ⟨'T', n, n, 1, t.mat, n, t.x, n, t.lwork⟩ := by
    unfold Solver.gelsArgs; rw [hnr, hnc, hbl]
  rw [hargs]
  set r : GelsArgs K := ⟨'T', n, n, 1, t.mat, n, t.x, n, t.lwork⟩ with hr
  have hf : ∀ i j : Nat, i < n → j < n → fortran t.mat n i j = a (j * n + i) := by
    intro i j hi hj
    unfold fortran
    rw [hmat, add_comm i]
    refine getD_map_range ?_
    have : (j + 1) * n ≤ n * n := Nat.mul_le_mul_right _ hj
    rw [Nat.succ_mul] at this; omega
  have hdet : (Matrix.of fun i j : Fin n => fortran t.mat n i j).det =
      (Matrix.of fun i j : Fin n => a (i * n + j)).det := by
    rw [← Matrix.det_transpose]
    congr 1
    ext i j
    simp only [Matrix.transpose_apply, Matrix.of_apply]
    exact hf _ _ j.2 i.2
  have hl : t.mat.length = n * n := by rw [hmat]; simp
  have hxl : t.x.length = n := by rw [hx]; simp
  have hsq := hg.square_ok r rfl rfl rfl hn rfl rfl hl hxl (by rw [hr]; simp [hlw])
  have hsg := hg.square_singular r rfl rfl rfl hn rfl rfl hl hxl (by rw [hr]; simp [hlw]) (by
    obtain ⟨k, hk, hk0⟩ := hne
    exact ⟨a k, by show a k ∈ t.mat; rw [hmat]; exact List.mem_map.2 ⟨k, List.mem_range.2 hk, rfl⟩, hk0⟩)
  simp only [hr] at hsq hsg
  rw [hdet] at hsq hsg
  have iff0 : (g r).info = 0 ↔ (Matrix.of fun i j : Fin n => a (i * n + j)).det ≠ 0 := by
    constructor
    · intro h0 hd
      have := hsg hd
      rw [← hr] at this; omega
    · intro hd; exact (hsq hd).1
  refine ⟨iff0, ?_⟩
  intro h0 i hi
  have := (hsq (iff0.1 h0)).2 i hi
  rw [hx, getD_map_range hi] at this
  rw [← this]
  refine Finset.sum_congr rfl fun j hj => ?_
  rw [hf j i (Finset.mem_range.1 hj) hi, ← hx]
  rfl

/-- For the zero matrix `solve` returns code 0 and the zero vector. -/
theorem zero_solve (g : Gels K) (hg : GelsContract g) (n : Nat) (hn : 1 ≤ n) (a b : Nat → K) (h0 : ∀ k < n * n, a k = 0) :
    ∃ s, setAndSolve g (LinearSolve.new n n) a b = .ok (s, 0) ∧ s.getSolution = List.replicate n 0 := by
  obtain ⟨t, ht, hwf, e1, e2⟩ := before_gels (LinearSolve.new n n) (wf_new n n) a b g hn hn
  have hnr : t.nrow = n := by rw [ht]; rfl
  have hnc : t.ncol = n := by rw [ht]; rfl
  have hmat : t.mat = (List.range (n * n)).map a := by rw [ht]; rfl
  have hx : t.x = (List.range n).map b := by
    rw [ht]; simp [LinearSolve.new]
  have hbl : t.b.length = n := by rw [hwf.b, hnr]
  have hlw : t.lwork = max 1 (n + max n 1) := by rw [ht]; simp [LinearSolve.new]
  have hargs : t.gelsArgs = ⟨'T', n, n, 1, t.mat, n, t.x, n, t.lwork⟩ := by
    unfold Solver.gelsArgs; rw [hnr, hnc, hbl]
  obtain ⟨z1, z2⟩ := hg.zero ⟨'T', n, n, 1, t.mat, n, t.x, n, t.lwork⟩ rfl rfl le_rfl hn rfl rfl (by rw [hmat]; simp)
    (by rw [hx]; simp) (by simp [hlw]) (by
      intro x hx
      have hx : x ∈ t.mat := hx
      rw [hmat] at hx
      obtain ⟨k, hk, rfl⟩ := List.mem_map.1 hx
      exact h0 k (List.mem_range.1 hk))
  refine ⟨_, by rw [e1, e2, hargs, z1], ?_⟩
  show (g _).b = _
  rw [z2, hx]
  simp

/-- **C10 (refuted part)** for the zero matrix of every size and every right-hand side that is not zero, which has no solution,
`solve` reports success and returns the zero vector. -/
theorem C10_zero_refuted (g : Gels K) (hg : GelsContract g) (n : Nat) (hn : 1 ≤ n) (b : Nat → K)
    (hb : ∃ i < n, b i ≠ 0) :
    ∃ s, setAndSolve g (LinearSolve.new n n) (fun _ => 0) b = .ok (s, 0) ∧ s.getSolution = List.replicate n 0 ∧
      ∃ i < n, ∑ j ∈ Finset.range n, (0 : K) * s.getSolution.getD j 0 ≠ b i := by
  obtain ⟨i, hi, hb⟩ := hb
  obtain ⟨s, h1, h2⟩ := zero_solve g hg n hn (fun _ => 0) b fun _ _ => rfl
  refine ⟨s, h1, h2, i, hi, ?_⟩
  simp only [zero_mul, Finset.sum_const_zero]
  exact hb.symm

/-- **C11** after any successful sequence of calls ending with `setMatrix a`, `setRightHandSide b`,
`solve`, the residual is the sum of `|A x - b|` over the rows, with the matrix and right-hand side
*given by the user*, and it is zero exactly if the returned `x` solves the user's system. -/
theorem C11_residual [IsStrictOrderedRing K] (g : Gels K) (hg : GelsContract g) (nrow ncol : Nat)
    (hr : 1 ≤ nrow) (hc : 1 ≤ ncol) (a b : Nat → K) :
    ∃ s code res, setAndSolve g (LinearSolve.new nrow ncol) a b = .ok (s, code) ∧
      s.getResidual (fun v => |v|) = .ok res ∧
      res = ∑ i ∈ Finset.range nrow,
        |∑ j ∈ Finset.range ncol, a (i * ncol + j) * s.getSolution.getD j 0 - b i| ∧
      (res = 0 ↔ ∀ i < nrow, ∑ j ∈ Finset.range ncol, a (i * ncol + j) * s.getSolution.getD j 0 = b i) := by
  obtain ⟨t, ht, hwf, e1, e2⟩ := before_gels (LinearSolve.new nrow ncol) (wf_new nrow ncol) a b g hr hc
  have hnr : t.nrow = nrow := by rw [ht]; rfl
  have hnc : t.ncol = ncol := by rw [ht]; rfl
  have hmo : t.matOri = (List.range (nrow * ncol)).map a := by rw [ht]; rfl
  have hb : t.b = (List.range nrow).map b := by rw [ht]; rfl
  set out := g t.gelsArgs with hout
  have hsz := hg.sizes t.gelsArgs
  rw [← hout] at hsz
  have hsz : out.a.length = t.mat.length ∧ out.b.length = t.x.length := hsz
  have wf' : WF { t with mat := out.a, x := out.b } :=
    ⟨by simp only; rw [hsz.1, hwf.mat], hwf.matOri, hwf.b, by simp only; rw [hsz.2, hwf.x]⟩
  have hres := residual_ok _ wf'
  refine ⟨_, _, _, by rw [e1, e2], hres, ?_, ?_⟩
  all_goals simp only [hnr, hnc, hmo, hb]
  · refine Finset.sum_congr rfl fun i hi => ?_
    rw [getD_map_range (Finset.mem_range.1 hi)]
    congr 2
    refine Finset.sum_congr rfl fun j hj => ?_
    rw [getD_map_range]
    · rfl
    · have : (i + 1) * ncol ≤ nrow * ncol := Nat.mul_le_mul_right _ (Finset.mem_range.1 hi)
      rw [Nat.succ_mul] at this
      have := Finset.mem_range.1 hj
      omega
  · rw [Finset.sum_eq_zero_iff_of_nonneg (fun i _ => abs_nonneg _)]
    have conv : ∀ i < nrow, (∑ j ∈ Finset.range ncol,
        ((List.range (nrow * ncol)).map a).getD (i * ncol + j) 0 * out.b.getD j 0 =
        ∑ j ∈ Finset.range ncol, a (i * ncol + j) * out.b.getD j 0) := by
      intro i hi
      refine Finset.sum_congr rfl fun j hj => ?_
      rw [getD_map_range]
      have : (i + 1) * ncol ≤ nrow * ncol := Nat.mul_le_mul_right _ hi
      rw [Nat.succ_mul] at this
      have := Finset.mem_range.1 hj
      omega
    constructor
    · intro h i hi
      have := h i (Finset.mem_range.2 hi)
      rw [abs_eq_zero, sub_eq_zero, getD_map_range hi, conv i hi] at this
      exact this
    · intro h i hi
      have hi' := Finset.mem_range.1 hi
      rw [abs_eq_zero, sub_eq_zero, getD_map_range hi', conv i hi']
      exact h i hi'

/-! ### C12: rectangular systems -/

/-- **C12 (refuted, more columns than rows)** for *every* system with fewer equations than unknowns
the call of `dgels` is illegal (`LDB` too small): `solve` returns -8, and the first entries of the
"solution" are just the right-hand side. -/
theorem C12_wide_refuted (g : Gels K) (hg : GelsContract g) (nrow ncol : Nat) (hr : 1 ≤ nrow)
    (hlt : nrow < ncol) (a b : Nat → K) :
    ∃ s, setAndSolve g (LinearSolve.new nrow ncol) a b = .ok (s, -8) ∧
      ∀ i < nrow, s.getSolution.getD i 0 = b i := by
  obtain ⟨t, ht, hwf, e1, e2⟩ := before_gels (LinearSolve.new nrow ncol) (wf_new nrow ncol) a b g hr
    (by show 1 ≤ ncol; omega)
  have hnr : t.nrow = nrow := by rw [ht]; rfl
  have hnc : t.ncol = ncol := by rw [ht]; rfl
  have hx : t.x = (List.range nrow).map b ++ (LinearSolve.new nrow ncol : Solver K).x.drop nrow := by rw [ht]; rfl
  have hb := hwf.b
  have := hg.bad_ldb t.gelsArgs rfl rfl (by show max 1 t.nrow ≤ t.nrow; omega)
    (by show t.b.length < max 1 (max t.nrow t.ncol); omega)
  refine ⟨_, by rw [e1, e2, this.1], ?_⟩
  intro i hi
  show (g _).b.getD i 0 = b i
  rw [this.2.1]
  show t.x.getD i 0 = b i
  rw [hx]
  simp [List.getD, List.getElem?_append, hi]

/-- **C12 (partial)** when the numbers of rows and columns agree and `solve` reports success, the
solution is the least-squares solution of the user's system: no other vector has a smaller sum of
squared residuals.  Missing: `nrow ≠ ncol`, for which the property is false
(`C12_wide_refuted`, `C12_tall_refuted`; `C12_tall_computes` says what is returned instead). -/
theorem C12_square_partial [IsStrictOrderedRing K] (g : Gels K) (hg : GelsContract g) (n : Nat)
    (hn : 1 ≤ n) (a b : Nat → K) :
    ∃ s code, setAndSolve g (LinearSolve.new n n) a b = .ok (s, code) ∧
      (code = 0 → ∀ y : Nat → K,
        ∑ i ∈ Finset.range n, (∑ j ∈ Finset.range n, a (i * n + j) * s.getSolution.getD j 0 - b i) ^ 2 ≤
        ∑ i ∈ Finset.range n, (∑ j ∈ Finset.range n, a (i * n + j) * y j - b i) ^ 2) := by
  by_cases hz : ∃ k < n * n, a k ≠ 0
  swap
  · push Not at hz
    obtain ⟨s, h1, -⟩ := zero_solve g hg n hn a b hz
    refine ⟨s, 0, h1, fun _ y => le_of_eq (Finset.sum_congr rfl fun i hi => ?_)⟩
    have e : ∀ z : Nat → K, ∑ j ∈ Finset.range n, a (i * n + j) * z j = 0 := by
      intro z
      refine Finset.sum_eq_zero fun j hj => ?_
      have h1 := Finset.mem_range.1 hi
      have h2 := Finset.mem_range.1 hj
      have : (i + 1) * n ≤ n * n := Nat.mul_le_mul_right _ h1
      rw [Nat.succ_mul] at this
      rw [hz _ (by omega), zero_mul]
    rw [e, e]
  obtain ⟨s, code, h, -, h2⟩ := C10_square_solve_partial g hg n hn a b hz
  refine ⟨s, code, h, fun h0 y => ?_⟩
  have : ∀ i ∈ Finset.range n,
      (∑ j ∈ Finset.range n, a (i * n + j) * s.getSolution.getD j 0 - b i) ^ 2 = 0 := by
    intro i hi
    rw [h2 h0 i (Finset.mem_range.1 hi), sub_self, zero_pow two_ne_zero]
  rw [Finset.sum_eq_zero this]
  exact Finset.sum_nonneg fun i _ => sq_nonneg _

/-- **C12 (what is returned for more rows than columns)** for every size `ncol < nrow` and matrix that is not zero: if `solve`
reports success, the `nrow` numbers it leaves are the shortest vector `x` satisfying
`sum_i a[i + j*nrow] x[i] = b[j]` for `j < ncol`.  The matrix is the user's array cut in pieces of
`nrow` numbers, not the user's matrix, and the last `nrow - ncol` right-hand sides are not used. -/
theorem C12_tall_computes (g : Gels K) (hg : GelsContract g) (nrow ncol : Nat) (hc : 1 ≤ ncol)
    (hlt : ncol < nrow) (a b : Nat → K) (hne : ∃ k < nrow * ncol, a k ≠ 0) :
    ∃ s code, setAndSolve g (LinearSolve.new nrow ncol) a b = .ok (s, code) ∧
      (code = 0 →
        (∀ j < ncol, ∑ i ∈ Finset.range nrow, a (i + j * nrow) * s.getSolution.getD i 0 = b j) ∧
        ∀ y : Nat → K, (∀ j < ncol, ∑ i ∈ Finset.range nrow, a (i + j * nrow) * y i = b j) →
          ∑ i ∈ Finset.range nrow, s.getSolution.getD i 0 ^ 2 ≤ ∑ i ∈ Finset.range nrow, y i ^ 2) := by
  obtain ⟨t, ht, hwf, e1, e2⟩ := before_gels (LinearSolve.new nrow ncol) (wf_new nrow ncol) a b g
    (show 1 ≤ nrow by omega) hc
  have hnr : t.nrow = nrow := by rw [ht]; rfl
  have hnc : t.ncol = ncol := by rw [ht]; rfl
  have hmat : t.mat = (List.range (nrow * ncol)).map a := by rw [ht]; rfl
  have hx : t.x = (List.range nrow).map b := by
    rw [ht]; simp [LinearSolve.new, hlt]
  have hbl : t.b.length = nrow := by rw [hwf.b, hnr]
  have hlw : t.lwork = max 1 (ncol + max ncol 1) := by
    rw [ht]; simp [LinearSolve.new, show ¬ nrow < ncol by omega]
  refine ⟨_, _, by rw [e1, e2], ?_⟩
  have hargs : t.gelsArgs = ⟨'T', nrow, ncol, 1, t.mat, nrow, t.x, nrow, t.lwork⟩ := by
    unfold Solver.gelsArgs; rw [hnr, hnc, hbl]
  rw [hargs]
  have hf : ∀ i ∈ Finset.range nrow, ∀ j : Nat, j < ncol →
      fortran t.mat nrow i j = a (i + j * nrow) := by
    intro i hi j hj
    unfold fortran
    rw [hmat]
    refine getD_map_range ?_
    have : (j + 1) * nrow ≤ ncol * nrow := Nat.mul_le_mul_right _ hj
    rw [Nat.succ_mul] at this
    have := Finset.mem_range.1 hi
    rw [Nat.mul_comm nrow ncol]; omega
  intro h0
  obtain ⟨k1, k2⟩ := hg.tall ⟨'T', nrow, ncol, 1, t.mat, nrow, t.x, nrow, t.lwork⟩ rfl rfl hlt hc rfl
    rfl (by rw [hmat]; simp) (by rw [hx]; simp) (by simp [hlw]) (by
      obtain ⟨k, hk, hk0⟩ := hne
      exact ⟨a k, by show a k ∈ t.mat; rw [hmat]; exact List.mem_map.2 ⟨k, List.mem_range.2 hk, rfl⟩, hk0⟩) h0
  simp only at k1 k2
  have hbj : ∀ j < ncol, t.x.getD j 0 = b j := by
    intro j hj
    rw [hx]; exact getD_map_range (by omega)
  have hsum : ∀ (y : Nat → K) (j : Nat), j < ncol →
      ∑ i ∈ Finset.range nrow, fortran t.mat nrow i j * y i =
      ∑ i ∈ Finset.range nrow, a (i + j * nrow) * y i :=
    fun y j hj => Finset.sum_congr rfl fun i hi => by rw [hf i hi j hj]
  refine ⟨fun j hj => ?_, fun y hy => ?_⟩
  · have := k1 j hj
    rw [hsum (fun i => _) j hj, hbj j hj] at this
    exact this
  · exact k2 y fun j hj => by rw [hsum y j hj, hbj j hj, hy j hj]

/-- **C12 (refuted, more rows than columns)** the system x = 0, x = 2 (two equations, one unknown) has
the least-squares solution x = 1, but whenever `solve` reports success the returned x is 0, which has
a larger sum of squared residuals. -/
theorem C12_tall_refuted [IsStrictOrderedRing K] (g : Gels K) (hg : GelsContract g) :
    ∃ s code, setAndSolve g (LinearSolve.new 2 1) (fun _ => 1) (fun i => if i = 1 then 2 else 0)
        = .ok (s, code) ∧
      (code = 0 → s.getSolution.getD 0 0 = 0 ∧
        ((1 : K) - 0) ^ 2 + (1 - 2) ^ 2 <
          (s.getSolution.getD 0 0 - 0) ^ 2 + (s.getSolution.getD 0 0 - 2) ^ 2) := by
  obtain ⟨t, ht, hwf, e1, e2⟩ := before_gels (LinearSolve.new 2 1) (wf_new 2 1)
    (fun _ => (1 : K)) (fun i => if i = 1 then 2 else 0) g (show 1 ≤ 2 by decide) (show 1 ≤ 1 by decide)
  have hnr : t.nrow = 2 := by rw [ht]; rfl
  have hnc : t.ncol = 1 := by rw [ht]; rfl
  have hmat : t.mat = [1, 1] := by rw [ht]; rfl
  have hx : t.x = [0, 2] := by rw [ht]; rfl
  have hlw : t.lwork = 2 := by rw [ht]; rfl
  have hbl : t.b.length = 2 := by rw [hwf.b, hnr]
  refine ⟨_, _, by rw [e1, e2], ?_⟩
  have hargs : t.gelsArgs = ⟨'T', 2, 1, 1, [1, 1], 2, [0, 2], 2, 2⟩ := by
    unfold Solver.gelsArgs; rw [hnr, hnc, hbl, hmat, hx, hlw]
  rw [hargs]
  intro h0
  obtain ⟨k1, k2⟩ := hg.tall ⟨'T', 2, 1, 1, [1, 1], 2, [0, 2], 2, 2⟩ rfl rfl (by norm_num) (by norm_num) rfl rfl rfl rfl
    (show max 1 (1 + max 1 1) ≤ 2 by decide) ⟨1, by simp, one_ne_zero⟩ h0
  have m0 := k2 (fun _ => 0) (by intro j hj; have : j = 0 := Nat.lt_one_iff.1 hj
                                 subst this; simp)
  set y := (g ⟨'T', 2, 1, 1, [1, 1], 2, [0, 2], 2, 2⟩).b with hy
  simp only [Finset.sum_range_succ, Finset.sum_range_zero] at m0
  have h1 : y.getD 0 0 = 0 := by
    have p0 := sq_nonneg (y.getD 0 (0 : K))
    have p1 := sq_nonneg (y.getD 1 (0 : K))
    have : y.getD 0 (0 : K) ^ 2 = 0 := by nlinarith
    exact pow_eq_zero_iff (two_ne_zero) |>.1 this
  have h1' : (({ t with mat := (g ⟨'T', 2, 1, 1, [1, 1], 2, [0, 2], 2, 2⟩).a, x := y } : Solver K).getSolution.getD 0 0) = 0 := h1
  refine ⟨h1, ?_⟩
  simp only [Solver.getSolution]
  show _ < (y.getD 0 0 - 0) ^ 2 + (y.getD 0 0 - 2) ^ 2
  rw [h1]; norm_num

/-! ### C13: history -/

theorem runOps_wf (g : Gels K) (hg : GelsContract g) (n : Nat) (hn : 1 ≤ n) :
    ∀ (ops : List (SolverOp K)) (s : Solver K), WF s → s.nrow = n → s.ncol = n →
      s.lwork = (LinearSolve.new n n : Solver K).lwork →
      ∃ s', runOps g s ops = .ok s' ∧ WF s' ∧ s'.nrow = n ∧ s'.ncol = n ∧
        s'.lwork = (LinearSolve.new n n : Solver K).lwork
  | [], s, h, h1, h2, h3 => ⟨s, rfl, h, h1, h2, h3⟩
  | op :: ops, s, h, h1, h2, h3 => by
    have step : ∃ s', op.exec g s = .ok s' ∧ WF s' ∧ s'.nrow = n ∧ s'.ncol = n ∧
        s'.lwork = (LinearSolve.new n n : Solver K).lwork := by
      cases op with
      | setMatrix a => exact ⟨_, setMatrix_ok s h a, ⟨by simp, by simp, h.b, h.x⟩, h1, h2, h3⟩
      | setRightHandSide b =>
        have hx := h.x
        exact ⟨_, setRhs_ok s h b, ⟨h.mat, h.matOri, by simp, by simp; omega⟩, h1, h2, h3⟩
      | solve =>
        have hp : 0 < s.nrow * s.ncol := by rw [h1, h2]; exact Nat.mul_pos hn hn
        have hsz := hg.sizes s.gelsArgs
        have hx := h.x
        have ha : (g s.gelsArgs).a.length = s.mat.length := hsz.1
        have hb : (g s.gelsArgs).b.length = s.x.length := hsz.2
        refine ⟨{ s with mat := (g s.gelsArgs).a, x := (g s.gelsArgs).b }, ?_,
          ⟨ha.trans h.mat, h.matOri, h.b, hb.trans h.x⟩, h1, h2, h3⟩
        simp only [SolverOp.exec, Solver.solve]
        rw [vget_ok (by rw [h.mat]; exact hp), vget_ok (by omega)]
        rfl
    obtain ⟨s', e, w, a1, a2, a3⟩ := step
    obtain ⟨s'', e', w'⟩ := runOps_wf g hg n hn ops s' w a1 a2 a3
    exact ⟨s'', by simp [runOps, e, e', bind, Except.bind], w'⟩

/-- **C13 (partial)** for square systems, after any sequence of earlier calls, setting a matrix and a
right-hand side and solving gives exactly the same object (hence code, solution and residual) as with a
new object.  Missing: re-solving with a new right-hand side without setting the matrix again, which
does not work (`C13_resolve_refuted`). -/
theorem C13_history_partial (g : Gels K) (hg : GelsContract g) (n : Nat) (hn : 1 ≤ n)
    (history : List (SolverOp K)) (a b : Nat → K) :
    ∃ s, runOps g (LinearSolve.new n n) history = .ok s ∧
      setAndSolve g s a b = setAndSolve g (LinearSolve.new n n) a b := by
  obtain ⟨s, e, w, h1, h2, h3⟩ := runOps_wf g hg n hn history (LinearSolve.new n n) (wf_new n n) rfl rfl rfl
  refine ⟨s, e, ?_⟩
  obtain ⟨t, ht, -, e1, -⟩ := before_gels s w a b g (by omega) (by omega)
  obtain ⟨t', ht', -, e1', -⟩ := before_gels (LinearSolve.new n n) (wf_new n n) a b g hn hn
  rw [e1, e1']
  have : t = t' := by
    rw [ht, ht']
    have hx := w.x
    have hx' := (wf_new n n : WF (LinearSolve.new n n : Solver K)).x
    have d1 : s.x.drop s.nrow = [] := by rw [List.drop_eq_nil_iff]; omega
    have hnn : (LinearSolve.new n n : Solver K).nrow = n := rfl
    have hnc : (LinearSolve.new n n : Solver K).ncol = n := rfl
    have d2 : (LinearSolve.new n n : Solver K).x.drop (LinearSolve.new n n : Solver K).nrow = [] := by
      rw [List.drop_eq_nil_iff]; omega
    rw [d1, d2, h1, h2, h3, hnn, hnc]
  rw [this]

/-! ### A library meeting the contract -/

open Classical in
/-- Reference library: returns zeros for a zero matrix, solves square systems by the inverse matrix, one-equation minimum norm
problems by projection, and leaves zeros in the matrix (the contract allows anything). -/
noncomputable def refGels : Gels K := fun r =>
  let z := List.replicate r.a.length (0 : K)
  if r.ldb < max 1 (max r.m r.n) then { a := r.a, b := r.b, info := -8 }
  else if ∀ x ∈ r.a, x = 0 then { a := r.a, b := List.replicate r.b.length 0, info := 0 }
  else if r.m = r.n then
    let M : Matrix (Fin r.n) (Fin r.n) K := Matrix.of fun i j => fortran r.a r.lda i j
    if M.det = 0 then { a := z, b := r.b, info := 1 }
    else
      let x := M.transpose⁻¹.mulVec (fun j => r.b.getD j 0)
      { a := z, info := 0
        b := (List.range r.b.length).map fun i => if h : i < r.n then x ⟨i, h⟩ else r.b.getD i 0 }
  else if r.n < r.m ∧ r.n = 1 then
    let q := ∑ i ∈ Finset.range r.m, fortran r.a r.lda i 0 ^ 2
    if q = 0 then { a := z, b := r.b, info := 1 }
    else { a := z, info := 0
           b := (List.range r.b.length).map fun i => fortran r.a r.lda i 0 * r.b.getD 0 0 / q }
  else { a := z, b := r.b, info := 1 }

/-- The contract can be met. -/
theorem refGels_contract [IsStrictOrderedRing K] : GelsContract (refGels (K := K)) := by
  refine ⟨?_, ?_, ?_, ?_, ?_, ?_⟩
  · intro r
    unfold refGels
    dsimp only
    split_ifs <;> simp
  · intro r _ _ _ h
    unfold refGels
    simp [h]
  · intro r _ _ hmn hn hlda hldb hal hbl _ hdet
    have h1 : ¬ (r.ldb < max 1 (max r.m r.n)) := by omega
    have h0 : ¬ ∀ x ∈ r.a, x = 0 := by
      intro h
      apply hdet
      have e : (Matrix.of fun i j : Fin r.n => fortran r.a r.lda i j) = 0 := by
        ext i j
        simp only [Matrix.of_apply, Matrix.zero_apply, fortran, List.getD_eq_getElem?_getD]
        cases hx : r.a[(i : Nat) + j * r.lda]? with
        | none => rfl
        | some x => exact h x (List.mem_of_getElem? hx)
      rw [e]
      have : Nonempty (Fin r.n) := ⟨⟨0, by omega⟩⟩
      exact Matrix.det_zero
    unfold refGels
    simp only [if_neg h1, if_neg h0, if_pos hmn, if_neg hdet]
    refine ⟨trivial, ?_⟩
    intro j hj
    set M : Matrix (Fin r.n) (Fin r.n) K := Matrix.of fun i j => fortran r.a r.lda i j with hM
    set x := M.transpose⁻¹.mulVec (fun j : Fin r.n => r.b.getD j 0) with hx
    have hunit : IsUnit M.transpose.det := by rw [Matrix.det_transpose]; exact isUnit_iff_ne_zero.2 hdet
    have hsol : M.transpose.mulVec x = fun j : Fin r.n => r.b.getD j 0 := by
      rw [hx, Matrix.mulVec_mulVec, Matrix.mul_nonsing_inv _ hunit, Matrix.one_mulVec]
    have := congrFun hsol ⟨j, hj⟩
    simp only [Matrix.mulVec, dotProduct, Matrix.transpose_apply, hM, Matrix.of_apply] at this
    rw [← this, Finset.sum_range]
    refine Finset.sum_congr rfl fun i _ => ?_
    rw [getD_map_range (by have := i.2; omega)]
    simp
  · intro r _ _ hmn hn hlda hldb hal hbl _ hne hdet
    have h1 : ¬ (r.ldb < max 1 (max r.m r.n)) := by omega
    have h0 : ¬ ∀ x ∈ r.a, x = 0 := by push Not; exact hne
    unfold refGels
    simp only [if_neg h1, if_neg h0, if_pos hmn, if_pos hdet]
    norm_num
  · intro r _ _ hlt hn hlda hldb hal hbl _ hne hinfo
    have h1 : ¬ (r.ldb < max 1 (max r.m r.n)) := by omega
    have h0 : ¬ ∀ x ∈ r.a, x = 0 := by push Not; exact hne
    have h2 : ¬ (r.m = r.n) := by omega
    unfold refGels at hinfo ⊢
    simp only [if_neg h1, if_neg h0, if_neg h2] at hinfo ⊢
    by_cases h3 : r.n < r.m ∧ r.n = 1
    · simp only [if_pos h3] at hinfo ⊢
      by_cases hq : ∑ i ∈ Finset.range r.m, fortran r.a r.lda i 0 ^ 2 = 0
      · simp [if_pos hq] at hinfo
      · simp only [if_neg hq]
        set q := ∑ i ∈ Finset.range r.m, fortran r.a r.lda i 0 ^ 2 with hqd
        have hx : ∀ i ∈ Finset.range r.m, ((List.range r.b.length).map fun i =>
            fortran r.a r.lda i 0 * r.b.getD 0 0 / q).getD i 0 =
            fortran r.a r.lda i 0 * r.b.getD 0 0 / q := by
          intro i hi
          rw [getD_map_range (by have := Finset.mem_range.1 hi; omega)]
        refine ⟨?_, ?_⟩
        · intro j hj
          have hj0 : j = 0 := by omega
          subst hj0
          have e : ∑ i ∈ Finset.range r.m, fortran r.a r.lda i 0 *
              (((List.range r.b.length).map fun i =>
                fortran r.a r.lda i 0 * r.b.getD 0 0 / q).getD i 0)
              = ∑ i ∈ Finset.range r.m, fortran r.a r.lda i 0 ^ 2 * (r.b.getD 0 0 / q) := by
            refine Finset.sum_congr rfl fun i hi => ?_
            rw [hx i hi]; ring
          rw [e, ← Finset.sum_mul, ← hqd]
          field_simp
        · intro y hy
          have hy0 := hy 0 (by omega)
          have e : ∑ i ∈ Finset.range r.m, (((List.range r.b.length).map fun i =>
                fortran r.a r.lda i 0 * r.b.getD 0 0 / q).getD i 0) ^ 2
              = ∑ i ∈ Finset.range r.m, fortran r.a r.lda i 0 ^ 2 * (r.b.getD 0 0 / q) ^ 2 := by
            refine Finset.sum_congr rfl fun i hi => ?_
            rw [hx i hi]; ring
          rw [e, ← Finset.sum_mul, ← hqd]
          have cs := Finset.sum_mul_sq_le_sq_mul_sq (Finset.range r.m)
            (fun i => fortran r.a r.lda i 0) y
          rw [hy0, ← hqd] at cs
          have hqpos : 0 < q := lt_of_le_of_ne
            (Finset.sum_nonneg fun i _ => sq_nonneg _) (Ne.symm hq)
          have : q * (r.b.getD 0 0 / q) ^ 2 = r.b.getD 0 0 ^ 2 / q := by field_simp
          rw [this, div_le_iff₀ hqpos]
          linarith
    · simp [if_neg h3] at hinfo
  · intro r _ _ hle hn hlda hldb hal hbl _ h0
    have h1 : ¬ (r.ldb < max 1 (max r.m r.n)) := by omega
    unfold refGels
    simp only [if_neg h1, if_pos h0]
    exact ⟨trivial, trivial⟩

/-- The hypotheses of C10-C13 can be met: the reference library solves a 2x2 system. -/
example : ∃ s, setAndSolve (refGels (K := ℚ)) (LinearSolve.new 2 2)
    (fun k => [2, 1, 1, 3].getD k 0) (fun k => [3, 5].getD k 0) = .ok (s, 0) := by
  obtain ⟨s, code, h, h0, -⟩ := C10_square_solve_partial (refGels (K := ℚ)) refGels_contract 2 (by norm_num)
    (fun k => [2, 1, 1, 3].getD k 0) (fun k => [3, 5].getD k 0) ⟨0, by norm_num, by norm_num⟩
  have : code = 0 := h0.2 (by rw [Matrix.det_fin_two]; simp; norm_num)
  exact ⟨s, this ▸ h⟩

/-- **C13 (refuted part)** `solve` overwrites the stored matrix: with a library meeting the contract,
setting only a new right-hand side after a successful solve and solving again reports success with a vector that does not solve
the user's equation, although the user's matrix (the number 1) is non-singular. -/
theorem C13_resolve_refuted :
    ∃ g : Gels ℚ, GelsContract g ∧
      ∃ s, setAndSolve g (LinearSolve.new 1 1) (fun _ => 1) (fun _ => 1) = .ok (s, 0) ∧
        ∃ s' code, (do let s ← s.setRightHandSide (fun _ => 2); s.solve g) = .ok (s', code) ∧ code = 0 ∧
          (1 : ℚ) * s'.getSolution.getD 0 0 ≠ 2 := by
  refine ⟨refGels, refGels_contract, ?_⟩
  obtain ⟨t, ht, hwf, e1, e2⟩ := before_gels (LinearSolve.new 1 1 : Solver ℚ) (wf_new 1 1)
    (fun _ => 1) (fun _ => 1) refGels (by decide) (by decide)
  have htt : t = ⟨[1], [1], [1], [1], 2, 1, 1⟩ := by rw [ht]; rfl
  subst htt
  have hg : refGels (K := ℚ) ⟨'T', 1, 1, 1, [1], 1, [1], 1, 2⟩ = { a := [0], b := [1], info := 0 } := by
    unfold refGels
    simp [fortran, Matrix.det_fin_one, Matrix.inv_def]
  have hargs : (⟨[1], [1], [1], [1], 2, 1, 1⟩ : Solver ℚ).gelsArgs = ⟨'T', 1, 1, 1, [1], 1, [1], 1, 2⟩ := rfl
  rw [hargs, hg] at e2
  refine ⟨_, by rw [e1, e2], ?_⟩
  have hg2 : refGels (K := ℚ) ⟨'T', 1, 1, 1, [0], 1, [2], 1, 2⟩ = { a := [0], b := [0], info := 0 } := by
    unfold refGels
    simp
  refine ⟨_, 0, by
    rw [setRhs_ok _ ⟨rfl, rfl, rfl, rfl⟩]
    simp only [bind, Except.bind, Solver.solve]
    rw [vget_ok (by simp), vget_ok (by simp)]
    simp only [pure, Except.pure]
    have e : ((List.range 1).map fun _ : Nat => (2 : ℚ)) ++ List.drop 1 [(1 : ℚ)] = [2] := rfl
    have e' : ((List.range 1).map fun _ : Nat => (2 : ℚ)).length = 1 := rfl
    unfold Solver.gelsArgs
    simp only
    rw [e, e', hg2], rfl, by simp [Solver.getSolution]⟩

end Sg.Props
