import Verif.Model.FindPointRaw
import Verif.Model.ConserveRaw
import Verif.Model.SideIterator
/-
Model of the calls of `SgFindPointInCell_type` after `setGrid`, on the vectors of the object (/repo/cpp/SgFindPointInCell.h:168-421,
the C interface SgFindPointInCell.cpp:32-95): loops over vectors that are changed in place, `size_t` arithmetic modulo 2^64,
conversions between `int` and `size_t`, and pointers to memory of the caller.  `Model/FindPoint` has the same methods on functions of
the axis.  Simplification: the vector of index and weight pairs can be allocated for any number of corners that fits a `size_t`.
-/
namespace Sg.FindPoint
open Sg.LinearSolve FOps Sg.Conserve
open Sg.SideIterator (toInt)

variable {F : Type} [Zero F] [One F] [Add F] [Sub F] [Mul F] [Div F] [Neg F] [LT F] [DecidableLT F]
  [LE F] [DecidableLE F] [DecidableEq F] [NatCast F] [IntCast F] [FOps F] {n : Nat}

/-- `a - b` on `size_t`. -/
def ssub (a b : Nat) : Nat := (a + 18446744073709551616 - b % 18446744073709551616) % 18446744073709551616

/-- `(size_t) pow(2, n)` (SgFindPointInCell.h:302): undefined when the power does not fit. -/
def pow2 (n : Nat) : Cxx Nat := if n < 64 then .ok (2 ^ n) else .error .badCast

/-- `(int) floor(x)` (SgFindPointInCell.h:313). -/
def floorInt (x : F) : Cxx Int :=
  match floorI x with
  | some k => .ok k
  | none => .error .badCast

/-- `j / q % 2` on `size_t` (SgFindPointInCell.h:320). -/
def cornerBit (j q : Nat) : Cxx Nat := if q = 0 then .error .divByZero else .ok (j / q % 2)

/-- One pass of the loop over the dimensions (SgFindPointInCell.h:311-329): flat index and weight.  In :317 and :320 an `int` and a
`size_t` are combined, which gives a `size_t`, and the result is converted back. -/
def Raw.cornerRound (s : Raw F) (dInds : List F) (j : Nat) (i : Nat) (fw : Nat × F) : Cxx (Nat × F) := do
  let d ← vget dInds i
  let lo ← floorInt d
  let lo := if lo ≥ 0 then lo else 0
  let m ← vget s.dims i
  let hi ← isub (toInt m) 2
  let lo := if lo ≤ hi then lo else toInt (ssub m 2)
  let q ← vget s.nodeProdDims i
  let bit ← cornerBit j q
  let indx := toInt (sadd (toSize lo) bit)
  let p ← vget s.prodDims i
  let dindx : F := (indx : F)
  return (sadd fw.1 (smul p (toSize indx)), fw.2 * (if dindx ≤ d then dindx + 1 - d else d - dindx + 1))

/-- Body of the loop over the corners (SgFindPointInCell.h:305-331). -/
def Raw.corner (s : Raw F) (dInds : List F) (j : Nat) : Cxx (Nat × F) :=
  forN s.dims.length (0, 1) (s.cornerRound dInds j)

/-- `getSrcIndicesAndWeights` (SgFindPointInCell.h:298-335). -/
def Raw.getSrcIndicesAndWeights (s : Raw F) (dInds : List F) : Cxx (List (Nat × F)) := do
  let nnodes ← pow2 s.dims.length
  forN nnodes (List.replicate nnodes ((0 : Nat), (0 : F))) fun j res => do
    let c ← s.corner dInds j
    vset res j c

/-- `interp` (SgFindPointInCell.h:344-358). -/
def Raw.interp (s : Raw F) (dInds nodalField : List F) : Cxx F := do
  let iw ← s.getSrcIndicesAndWeights dInds
  forN iw.length 0 fun k res => do
    let e ← vget iw k
    let v ← vget nodalField e.1
    return res + e.2 * v

/-- `getPosition` (SgFindPointInCell.h:168-175). -/
def Raw.getPosition (s : Raw F) : Cxx (List F) :=
  forN s.dims.length (List.replicate s.dims.length (0 : F)) fun i pos => do
    let c ← vget s.coords i
    let x ← s.interp s.dIndices c
    vset pos i x

/-- `getError` (SgFindPointInCell.h:181-190). -/
def Raw.getError (s : Raw F) : Cxx F := do
  let pos ← s.getPosition
  let res ← forN s.dims.length (0 : F) fun i res => do
    let p ← vget pos i
    let t ← vget s.targetPoint i
    return res + (p - t) * (p - t)
  return sqrt res

/-- `reset` (SgFindPointInCell.h:192-200); the arguments are the memory behind the pointers. -/
def Raw.reset (s : Raw F) (dIndices targetPoint : List F) : Cxx (Raw F) := do
  let s ← forN s.dims.length s fun i s => do
    let d ← vget dIndices i
    let ds ← vset s.dIndices i d
    let t ← vget targetPoint i
    let ts ← vset s.targetPoint i t
    return { s with dIndices := ds, targetPoint := ts }
  return { s with iter := 0, errorHistory := [] }

/-- The local variables of `computeJacobianAndRHS` and the members it writes. -/
structure JacState (F : Type) where
  hi : List F
  lo : List F
  jac : List F
  rhs : List F
  k : Nat

/-- The inner loop of `computeJacobianAndRHS` (SgFindPointInCell.h:378-396), for the coordinates `c`. -/
def Raw.jacRound (s : Raw F) (c : List F) (j : Nat) (w : JacState F) : Cxx (JacState F) := do
  let m ← vget s.dims j
  let top : F := ((ssub m 1 : Nat) : F)
  let h ← vget w.hi j
  let h := h + 1 / (1 + 1)
  let h := if h ≤ top then h else top
  let hi ← vset w.hi j h
  let xHi ← s.interp hi c
  let l ← vget w.lo j
  let l := l - 1 / (1 + 1)
  let l := if (0 : F) ≤ l then l else 0
  let lo ← vset w.lo j l
  let xLo ← s.interp lo c
  let jac ← vset w.jac w.k ((xHi - xLo) / (h - l))
  let d ← vget s.dIndices j
  let hi ← vset hi j d
  let lo ← vset lo j d
  return { w with hi := hi, lo := lo, jac := jac, k := w.k + 1 }

/-- One pass of the outer loop (SgFindPointInCell.h:372-397). -/
def Raw.rhsRound (s : Raw F) (i : Nat) (w : JacState F) : Cxx (JacState F) := do
  let c ← vget s.coords i
  let pos ← s.interp s.dIndices c
  let t ← vget s.targetPoint i
  let rhs ← vset w.rhs i (t - pos)
  forN s.dims.length { w with rhs := rhs } (s.jacRound c)

/-- `computeJacobianAndRHS` (SgFindPointInCell.h:363-398). -/
def Raw.computeJacobianAndRHS (s : Raw F) : Cxx (Raw F) := do
  let w ← forN s.dims.length (⟨s.dIndices, s.dIndices, s.jacMatrix, s.rhs, 0⟩ : JacState F) s.rhsRound
  return { s with jacMatrix := w.jac, rhs := w.rhs }

/-- `truncateIndices` (SgFindPointInCell.h:403-421), on the vector of indices. -/
def Raw.truncateIndices (s : Raw F) : Cxx (Raw F) := do
  let ds ← forN s.dims.length s.dIndices fun i ds => do
    let p ← vget s.indexPeriodicity i
    let d ← vget ds i
    let d := if p ≠ 0 then fmod (fmod d p + p) p else d
    let d := if d < 0 then 0 else d
    let m ← vget s.dims i
    let top : F := ((ssub m 1 : Nat) : F)
    vset ds i (if top < d then top else d)
  return { s with dIndices := ds }

/-- The domain test at the beginning of `next` (SgFindPointInCell.h:216-222). -/
def Raw.inside (s : Raw F) : Cxx Bool :=
  forN s.dims.length true fun i b => do
    let t ← vget s.targetPoint i
    let lo ← vget s.xmins i
    let hi ← vget s.xmaxs i
    return b && decide (lo - eps100 ≤ t) && decide (t ≤ hi + eps100)

/-- `setMatrix` of the solver (SgLinearSolve.h:62-73) with the memory behind the pointer. -/
def setMatrixFrom (self : Solver F) (a : List F) : Cxx (Solver F) :=
  forN self.nrow self fun i s => forN self.ncol s fun j s => do
    let k := i * self.ncol + j
    let v ← vget a k
    let m ← vset s.mat k v
    let mo ← vset s.matOri k v
    return { s with mat := m, matOri := mo }

/-- `setRightHandSide` of the solver (SgLinearSolve.h:75-80) with the memory behind the pointer. -/
def setRhsFrom (self : Solver F) (b : List F) : Cxx (Solver F) :=
  forN self.nrow self fun i s => do
    let v ← vget b i
    let x ← vset s.x i v
    let b' ← vset s.b i v
    return { s with x := x, b := b' }

/-- The end of `next` (SgFindPointInCell.h:240-272). -/
def Raw.finishStep (s : Raw F) (posError : F) : Cxx (Int × Raw F) := do
  let s := { s with errorHistory := s.errorHistory ++ [posError] }
  let stuck ← if s.oldError + eps100 < posError then
      let niter := s.errorHistory.length
      if niter ≥ 3 then do
        let e ← vget s.errorHistory (niter - 3)
        pure (decide (e + eps100 < posError))
      else pure false
    else pure false
  if stuck then return (-2, s)
  else if s.iter ≥ s.nitermax then return (-1, s)
  else if posError < s.tolpos then return (1, s)
  else return (0, { s with oldError := posError })

/-- `next` (SgFindPointInCell.h:211-273).  Without a grid the solver pointer is null; `iter` is an `int`. -/
def Raw.next (g : Gels F) (s : Raw F) : Cxx (Int × Raw F) := do
  let inside ← s.inside
  if !inside then return (-3, s)
  else
    let s ← s.computeJacobianAndRHS
    match s.slvr with
    | none => .error .nullDeref
    | some slvr =>
      let slvr ← setMatrixFrom slvr s.jacMatrix
      let slvr ← setRhsFrom slvr s.rhs
      let (slvr, _) ← slvr.solve g
      let ds ← forN s.dims.length s.dIndices fun i ds => do
        let x ← vget slvr.getSolution i
        let d ← vget ds i
        vset ds i (d + x)
      let s ← Raw.truncateIndices { s with slvr := some slvr, dIndices := ds }
      let iter ← iadd s.iter 1
      let s := { s with iter := iter }
      let posError ← s.getError
      s.finishStep posError

/-- `getSrcDomainLo`, `getSrcDomainHi` (SgFindPointInCell.h:152-162): `front()` of an empty vector is undefined. -/
def Raw.getSrcDomain (s : Raw F) : Cxx (List F × List F) :=
  if s.xmins = [] ∨ s.xmaxs = [] then .error .badIterator else .ok (s.xmins, s.xmaxs)

/-- Copying a vector to memory of the caller (SgFindPointInCell.cpp:36-38, 67-69). -/
def copyOut (v mem : List F) : Cxx (List F) :=
  forN v.length mem fun i mem => do
    let x ← vget v i
    vset mem i x

/-- `SgFindPointInCell_getPosition` (SgFindPointInCell.cpp:32-40): the memory of the caller afterwards. -/
def Raw.getPositionC (s : Raw F) (pos : List F) : Cxx (List F) := do
  let p ← s.getPosition
  copyOut p pos

/-- `SgFindPointInCell_getIndices` (SgFindPointInCell.cpp:63-71): the memory of the caller afterwards. -/
def Raw.getIndicesC (s : Raw F) (dIndices : List F) : Cxx (List F) := copyOut s.dIndices dIndices

end Sg.FindPoint
