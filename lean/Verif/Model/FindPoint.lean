import Verif.Model.Cxx
import Verif.Model.LinearSolve
import Mathlib.Algebra.BigOperators.Fin
/-
Model of `SgFindPointInCell_type` (/repo/cpp/SgFindPointInCell.h).  `F` is the scalar type, of which only
operations are assumed.  Vectors of size `ndims` are functions on `Fin n`; the number of dimensions of an
object is fixed (setGrid is always called with the same `ndims > 0`).  Node counts are naturals (in C++
`int`), their product is assumed to fit an `int` (`Model/FindPointRaw` has the overflow).  Unsigned index arithmetic is done in `Int`; a negative
value stands for the wrapped `size_t`, which is out of range for any array.
-/
namespace Sg.FindPoint
open Sg.LinearSolve

/-- Floating point functions and constants used by the class. -/
class FOps (F : Type) where
  /-- `(int) floor(x)`; `none` when the conversion is undefined (NaN, out of range) -/
  floorI : F → Option Int
  sqrt : F → F
  fmod : F → F → F
  /-- `numeric_limits<double>::max()` -/
  big : F
  /-- `100*numeric_limits<double>::epsilon()` -/
  eps100 : F
open FOps

variable {F : Type} [Zero F] [One F] [Add F] [Sub F] [Mul F] [Div F] [Neg F] [LT F] [DecidableLT F]
  [LE F] [DecidableLE F] [DecidableEq F] [NatCast F] [IntCast F] [FOps F] {n : Nat}

/-- `prodDims` (SgFindPointInCell.h:120-123). -/
def prodDims (dims : Fin n → Nat) (i : Nat) : Nat :=
  if h : i + 1 < n then prodDims dims (i + 1) * dims ⟨i + 1, h⟩ else 1
termination_by n - i

/-- `nodeProdDims` (SgFindPointInCell.h:121-124). -/
def nodeProdDims (n : Nat) (i : Nat) : Nat :=
  if _h : i + 1 < n then nodeProdDims n (i + 1) * 2 else 1
termination_by n - i

/-- Data members (SgFindPointInCell.h:18-66); `prodDims` and `nodeProdDims` are functions of `dims`. -/
structure Finder (F : Type) (n : Nat) where
  slvr : Option (Solver F)
  coords : Fin n → List F
  /-- `none` until the first setGrid (empty vectors) -/
  bounds : Option ((Fin n → F) × (Fin n → F))
  indexPeriodicity : Fin n → F
  dims : Fin n → Nat
  targetPoint : Fin n → F
  nitermax : Int
  tolpos : F
  iter : Int
  dIndices : Fin n → F
  errorHistory : List F
  oldError : F

/-- Constructor (SgFindPointInCell.h:73-80). -/
def Finder.new (nitermax : Int) (tolpos : F) : Finder F n :=
  { slvr := none, coords := fun _ => [], bounds := none, indexPeriodicity := fun _ => 0
    dims := fun _ => 0, targetPoint := fun _ => 0, nitermax := nitermax, tolpos := tolpos, iter := 0
    dIndices := fun _ => 0, errorHistory := [], oldError := big }

/-- `setGrid` (SgFindPointInCell.h:96-146).  `coords i j` is the caller's `coords[i][j]`.  `resize` keeps
the entries of `xmins`, `xmaxs`, `indexPeriodicity`, `dIndices` and `targetPoint` that are already there; before the first
grid these vectors are empty, and `reset` writes nothing. -/
def Finder.setGrid (s : Finder F n) (dims : Fin n → Nat) (periodicity : Fin n → Int) (coords : Fin n → Nat → F) :
    Finder F n :=
  let b0 := s.bounds.getD (fun _ => big, fun _ => -big)
  let ntot := ∏ i, dims i
  { s with
    indexPeriodicity := fun i => if periodicity i ≠ 0 then (dims i : F) else s.indexPeriodicity i
    dims := dims
    dIndices := if s.bounds.isSome then s.dIndices else fun _ => 0
    targetPoint := if s.bounds.isSome then s.targetPoint else fun _ => 0
    coords := fun i => (List.range ntot).map (coords i)
    bounds := some
      (fun i => (List.range ntot).foldl (fun m j => if m < coords i j then m else coords i j) (b0.1 i),
       fun i => (List.range ntot).foldl (fun m j => if coords i j < m then m else coords i j) (b0.2 i))
    slvr := some (LinearSolve.new n n) }

/-- Index of a cell corner along one axis (SgFindPointInCell.h:313-320): `bit` is `j / nodeProdDims[i] % 2`. -/
def loCorner (dims : Nat) (lo : Int) : Int :=
  let lo := if lo ≥ 0 then lo else 0
  if lo ≤ (dims : Int) - 2 then lo else (dims : Int) - 2

/-- Weight factor along one axis (SgFindPointInCell.h:325-328). -/
def axisWeight (d : F) (indx : Int) : F :=
  let dindx : F := (indx : F)
  if dindx ≤ d then dindx + 1 - d else d - dindx + 1

/-- Lower corner of the cell containing a position, `none` if a conversion is undefined
(SgFindPointInCell.h:313-317). -/
def loCorners (dims : Fin n → Nat) (dInds : Fin n → F) : Cxx (Fin n → Int) :=
  if h : ∀ i, (floorI (dInds i)).isSome then
    .ok fun i => loCorner (dims i) ((floorI (dInds i)).get (h i))
  else .error .badCast

/-- Body of the loop over corners (SgFindPointInCell.h:307-331), for corner `j`. -/
def cornerIndexWeight (dims : Fin n → Nat) (dInds : Fin n → F) (lo : Fin n → Int) (j : Nat) : Int × F :=
  let indx : Fin n → Int := fun i => lo i + ((j / nodeProdDims n i % 2 : Nat) : Int)
  (∑ i : Fin n, (prodDims dims i : Int) * indx i,
   (List.finRange n).foldl (fun w i => w * axisWeight (dInds i) (indx i)) 1)

/-- `getSrcIndicesAndWeights` (SgFindPointInCell.h:298-335). -/
def getSrcIndicesAndWeights (dims : Fin n → Nat) (dInds : Fin n → F) : Cxx (List (Int × F)) := do
  let lo ← loCorners dims dInds
  return (List.range (2 ^ n)).map (cornerIndexWeight dims dInds lo)

/-- Read `v[k]` with a possibly wrapped index. -/
def vgetI {α : Type} (l : List α) (k : Int) : Cxx α := if 0 ≤ k then vget l k.toNat else .error .outOfBounds

/-- `interp` (SgFindPointInCell.h:344-358). -/
def interp (dims : Fin n → Nat) (dInds : Fin n → F) (nodalField : List F) : Cxx F := do
  let iw ← getSrcIndicesAndWeights dims dInds
  iw.foldlM (fun res e => do
    let v ← vgetI nodalField e.1
    return res + e.2 * v) 0

/-- Collect the results of a computation for each axis, in order. -/
def forAxes {α : Type} : {n : Nat} → (Fin n → Cxx α) → Cxx (Fin n → α)
  | 0, _ => .ok fun i => i.elim0
  | _ + 1, f =>
    match f 0 with
    | .error e => .error e
    | .ok a =>
      match forAxes (fun i => f i.succ) with
      | .error e => .error e
      | .ok r => .ok (Fin.cons a r)

/-- `getPosition` (SgFindPointInCell.h:168-175). -/
def Finder.getPosition (s : Finder F n) : Cxx (Fin n → F) :=
  forAxes fun i => interp s.dims s.dIndices (s.coords i)

/-- `getError` (SgFindPointInCell.h:181-190). -/
def Finder.getError (s : Finder F n) : Cxx F := do
  let pos ← s.getPosition
  return sqrt ((List.finRange n).foldl (fun res i =>
    let dp := pos i - s.targetPoint i
    res + dp * dp) 0)

/-- `reset` (SgFindPointInCell.h:192-200); `oldError` is kept. -/
def Finder.reset (s : Finder F n) (dIndices targetPoint : Fin n → F) : Finder F n :=
  { s with dIndices := dIndices, targetPoint := targetPoint, iter := 0, errorHistory := [] }

/-- `dIndsHi` (SgFindPointInCell.h:380-381) as a whole vector. -/
def indsHi (dims : Fin n → Nat) (d : Fin n → F) (j : Fin n) : Fin n → F := fun k =>
  if k = j then
    let v := d j + 1 / (1 + 1)
    if v ≤ ((dims j - 1 : Nat) : F) then v else ((dims j - 1 : Nat) : F)
  else d k

/-- `dIndsLo` (SgFindPointInCell.h:384-385) as a whole vector. -/
def indsLo (d : Fin n → F) (j : Fin n) : Fin n → F := fun k =>
  if k = j then
    let v := d j - 1 / (1 + 1)
    if (0 : F) ≤ v then v else 0
  else d k

/-- `computeJacobianAndRHS` (SgFindPointInCell.h:363-398): the matrix (row-major) and right-hand side. -/
def Finder.computeJacobianAndRHS (s : Finder F n) : Cxx ((Fin n → Fin n → F) × (Fin n → F)) := do
  let rhs ← forAxes fun i => do
    let pos ← interp s.dims s.dIndices (s.coords i)
    return s.targetPoint i - pos
  let jac ← forAxes fun i => forAxes fun j => do
    let hi := indsHi s.dims s.dIndices j
    let lo := indsLo s.dIndices j
    let xHi ← interp s.dims hi (s.coords i)
    let xLo ← interp s.dims lo (s.coords i)
    return (xHi - xLo) / (hi j - lo j)
  return (jac, rhs)

/-- `truncateIndices` along one axis (SgFindPointInCell.h:411-420). -/
def truncateIndex (period : F) (dims : Nat) (d : F) : F :=
  let d := if period ≠ 0 then fmod (fmod d period + period) period else d
  let d := if d < 0 then 0 else d
  if ((dims - 1 : Nat) : F) < d then ((dims - 1 : Nat) : F) else d

/-- Row-major view of a matrix, as passed to the solver; indices past the end are not read. -/
def flatten2 (m : Fin n → Fin n → F) (k : Nat) : F :=
  if h : k / n < n ∧ k % n < n then m ⟨k / n, h.1⟩ ⟨k % n, h.2⟩ else 0
def flatten1 (v : Fin n → F) (k : Nat) : F := if h : k < n then v ⟨k, h⟩ else 0

/-- The domain test at the beginning of `next` (SgFindPointInCell.h:218-222). -/
def Finder.inside (s : Finder F n) (b : (Fin n → F) × (Fin n → F)) : Bool :=
  (List.finRange n).all fun i =>
    decide (b.1 i - eps100 ≤ s.targetPoint i) && decide (s.targetPoint i ≤ b.2 i + eps100)

/-- The end of `next` (SgFindPointInCell.h:244-272): error bookkeeping and the code. -/
def Finder.finishStep (s : Finder F n) (posError : F) : Int × Finder F n :=
  let s := { s with iter := s.iter + 1, errorHistory := s.errorHistory ++ [posError] }
  let niter := s.errorHistory.length
  if s.oldError + eps100 < posError ∧ 3 ≤ niter ∧ s.errorHistory.getD (niter - 3) 0 + eps100 < posError then (-2, s)
  else if s.iter ≥ s.nitermax then (-1, s)
  else if posError < s.tolpos then (1, s)
  else (0, { s with oldError := posError })

/-- `next` (SgFindPointInCell.h:211-273).  Without a grid the solver pointer is null. -/
def Finder.next (g : Gels F) (s : Finder F n) : Cxx (Int × Finder F n) := do
  match s.bounds, s.slvr with
  | some b, some slvr =>
    if !s.inside b then return (-3, s)
    else
      let (jac, rhs) ← s.computeJacobianAndRHS
      let slvr ← slvr.setMatrix (flatten2 jac)
      let slvr ← slvr.setRightHandSide (flatten1 rhs)
      let (slvr, _) ← slvr.solve g
      let sol ← forAxes fun i : Fin n => vget slvr.getSolution i
      let s := { s with
        slvr := some slvr
        dIndices := fun i => truncateIndex (s.indexPeriodicity i) (s.dims i) (s.dIndices i + sol i) }
      let posError ← s.getError
      return s.finishStep posError
  | _, _ => .error .nullDeref

/-- A client loop `stop = 0; while (!stop) stop = next();` (SgNodeInterp2D.h:231-233,
SgFindOverlappingCells2D.h:130-138): the last code and the state.  `fuel` bounds the number of calls; the users below
take `fuelOf`, which is enough (theorem C31). -/
def searchLoop (g : Gels F) : Nat → Finder F n → Cxx (Int × Finder F n)
  | 0, s => .ok (0, s)
  | k + 1, s => do
    let r ← s.next g
    if r.1 = 0 then searchLoop g k r.2 else return r

/-- A number of calls of `next` after which a search has ended. -/
def Finder.fuelOf (s : Finder F n) : Nat := (max s.nitermax 1).toNat

end Sg.FindPoint
