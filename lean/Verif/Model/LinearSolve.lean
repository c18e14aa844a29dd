import Verif.Model.Cxx
import Mathlib.Algebra.Order.Group.Abs
/-
Model of `SgLinearSolve_type` (/repo/cpp/SgLinearSolve.h; /repo/cpp/SgLinearSolve.cpp only forwards).
The LAPACK routine `dgels` is a parameter (`Gels`); its documented contract is in
`Verif/Spec/Gels.lean`.  The matrix sizes are taken positive naturals (an `int` in C++).
-/
namespace Sg.LinearSolve

variable {F : Type}

/-- Arguments of `dgels` (SgLinearSolve.h:17-23,87-94). -/
structure GelsArgs (F : Type) where
  trans : Char
  m : Nat
  n : Nat
  nrhs : Nat
  a : List F
  lda : Nat
  b : List F
  ldb : Nat
  lwork : Nat

/-- What `dgels` leaves behind: the overwritten matrix, the overwritten right-hand side, `info`. -/
structure GelsOut (F : Type) where
  a : List F
  b : List F
  info : Int

/-- A linear algebra library.  Simplification: its result may depend on everything but the contents
of the work array. -/
abbrev Gels (F : Type) := GelsArgs F → GelsOut F

/-- Members (SgLinearSolve.h:27-43); `work` is represented by its length `lwork`. -/
structure Solver (F : Type) where
  mat : List F
  matOri : List F
  b : List F
  x : List F
  lwork : Nat
  nrow : Nat
  ncol : Nat

/-- Constructor (SgLinearSolve.h:45-58); `resize` fills with zeros. -/
def new [Zero F] (nrow ncol : Nat) : Solver F :=
  let ldb := if ncol < nrow then nrow else ncol
  let mn := if nrow < ncol then nrow else ncol
  { nrow := nrow, ncol := ncol
    mat := List.replicate (nrow * ncol) 0
    matOri := List.replicate (nrow * ncol) 0
    b := List.replicate nrow 0
    x := List.replicate ldb 0
    lwork := max 1 (mn + max mn 1 * 1) }

/-- `setMatrix` (SgLinearSolve.h:62-73); `a` is the caller's array. -/
def Solver.setMatrix (self : Solver F) (a : Nat → F) : Cxx (Solver F) :=
  forN self.nrow self fun i s => forN self.ncol s fun j s => do
    let k := i * self.ncol + j
    let m ← vset s.mat k (a k)
    let mo ← vset s.matOri k (a k)
    return { s with mat := m, matOri := mo }

/-- `setRightHandSide` (SgLinearSolve.h:75-80). -/
def Solver.setRightHandSide (self : Solver F) (b : Nat → F) : Cxx (Solver F) :=
  forN self.nrow self fun i s => do
    let x ← vset s.x i (b i)
    let b' ← vset s.b i (b i)
    return { s with x := x, b := b' }

/-- The arguments `solve` passes to `dgels` (SgLinearSolve.h:84-94). -/
def Solver.gelsArgs (s : Solver F) : GelsArgs F :=
  { trans := 'T', m := s.nrow, n := s.ncol, nrhs := 1, a := s.mat, lda := s.nrow, b := s.x,
    ldb := s.b.length, lwork := s.lwork }

/-- `solve` (SgLinearSolve.h:82-103): state after the call and the returned code.
`&v.front()` of an empty vector is undefined. -/
def Solver.solve (g : Gels F) (s : Solver F) : Cxx (Solver F × Int) := do
  let _ ← vget s.mat 0
  let _ ← vget s.x 0
  let out := g s.gelsArgs
  return ({ s with mat := out.a, x := out.b }, out.info)

/-- `getSolution` (SgLinearSolve.h:105-107): a pointer to `x`, represented by its contents. -/
def Solver.getSolution (s : Solver F) : List F := s.x

/-- `getResidual` (SgLinearSolve.h:109-121); `abs` is `fabs`. -/
def Solver.getResidual [Zero F] [Add F] [Sub F] [Mul F] (abs : F → F) (s : Solver F) : Cxx F :=
  forN s.nrow 0 fun i res => do
    let val ← forN s.ncol 0 fun j val => do
      let k := i * s.ncol + j
      let a ← vget s.matOri k
      let x ← vget s.x j
      return val + a * x
    let bi ← vget s.b i
    return res + abs (val - bi)

end Sg.LinearSolve
