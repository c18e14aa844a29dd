import Verif.Model.LinearSolve
import Verif.Model.FindPointRaw
/-
Model of `SgLinearSolve_type` (/repo/cpp/SgLinearSolve.h) as it takes its arguments through the C interface
(/repo/cpp/SgLinearSolve.cpp): sizes that are any `int`, vectors with sizes, pointers to memory of the caller.  `Model/LinearSolve`
is the class for sizes that make sense.
-/
namespace Sg.LinearSolve
open Sg.FindPoint

variable {F : Type}

/-- Members (SgLinearSolve.h:27-43).  Of `work` the number of elements is kept. -/
structure RSolver (F : Type) where
  mat : List F
  matOri : List F
  b : List F
  x : List F
  workSize : Nat
  lwork : Int
  nrow : Int
  ncol : Int
  deriving DecidableEq, Repr

/-- Constructor (SgLinearSolve.h:45-58) and `SgLinearSolve_new` (SgLinearSolve.cpp:8-12). -/
def RSolver.new [Zero F] (nrow ncol : Int) : Call' (RSolver F) := do
  let ldb := if ncol < nrow then nrow else ncol
  let mn := if nrow < ncol then nrow else ncol
  let p ← lift' (imul nrow ncol)
  let mat ← resize [] (toSize p) 0
  let q ← lift' (imul nrow ncol)
  let matOri ← resize [] (toSize q) 0
  let b ← resize [] (toSize nrow) 0
  let x ← resize [] (toSize ldb) 0
  let t ← lift' (imul (max mn 1) 1)
  let u ← lift' (iadd mn t)
  let lwork := max 1 u
  let work ← resize [] (toSize lwork) (0 : F)
  return { mat, matOri, b, x, workSize := work.length, lwork, nrow, ncol }

/-- `setMatrix` (SgLinearSolve.h:62-73, SgLinearSolve.cpp:20-25); `a` is the memory behind the pointer. -/
def RSolver.setMatrix (self : RSolver F) (a : List F) : Cxx (RSolver F) :=
  forN self.nrow.toNat self fun i s => forN self.ncol.toNat s fun j s => do
    let r ← imul i self.ncol
    let k ← iadd r j
    let v ← vget a (toSize k)
    let m ← vset s.mat (toSize k) v
    let w ← vget a (toSize k)
    let mo ← vset s.matOri (toSize k) w
    return { s with mat := m, matOri := mo }

/-- `setRightHandSide` (SgLinearSolve.h:75-80, SgLinearSolve.cpp:27-32); `b` is the memory behind the pointer. -/
def RSolver.setRightHandSide (self : RSolver F) (b : List F) : Cxx (RSolver F) :=
  forN self.nrow.toNat self fun i s => do
    let v ← vget b i
    let x ← vset s.x i v
    let w ← vget b i
    let b' ← vset s.b i w
    return { s with x := x, b := b' }

/-- `solve` (SgLinearSolve.h:82-103, SgLinearSolve.cpp:34-37).  `front()` of an empty vector is undefined, so that `dgels` is
called only with an object whose sizes are positive. -/
def RSolver.solve (g : Gels F) (s : RSolver F) : Cxx (RSolver F × Int) := do
  let _ ← vget s.mat 0
  let _ ← vget s.x 0
  if s.workSize = 0 then throw .outOfBounds
  let out := g { trans := 'T', m := s.nrow.toNat, n := s.ncol.toNat, nrhs := 1, a := s.mat, lda := s.nrow.toNat, b := s.x,
                 ldb := s.b.length, lwork := s.lwork.toNat }
  return ({ s with mat := out.a, x := out.b }, out.info)

/-- `getSolution` (SgLinearSolve.h:105-107, SgLinearSolve.cpp:39-44): `&x.front()`, represented by the contents of `x`. -/
def RSolver.getSolution (s : RSolver F) : Cxx (List F) := do
  let _ ← vget s.x 0
  return s.x

/-- `getResidual` (SgLinearSolve.h:109-121, SgLinearSolve.cpp:46-51); `abs` is `fabs`.  The `int` `k` is an index of type `size_t`. -/
def RSolver.getResidual [Zero F] [Add F] [Sub F] [Mul F] (abs : F → F) (s : RSolver F) : Cxx F :=
  forN s.nrow.toNat 0 fun i res => do
    let val ← forN s.ncol.toNat 0 fun j val => do
      let r ← imul i s.ncol
      let k ← iadd r j
      let a ← vget s.matOri (toSize k)
      let x ← vget s.x j
      return val + a * x
    let bi ← vget s.b i
    return res + abs (val - bi)

end Sg.LinearSolve
