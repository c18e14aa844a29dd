import Verif.Model.FindPoint
/-
Model of `setGrid` of `SgFindPointInCell_type` as it takes its arguments and keeps its data (/repo/cpp/SgFindPointInCell.h:14-66
and 96-146, the C interface SgFindPointInCell.cpp:23-30): vectors whose sizes change with the number of dimensions, `int` counts,
`size_t` products and pointers to memory of the caller.  `Model/FindPoint` has the rest of the class.
-/
namespace Sg.FindPoint
open Sg.LinearSolve FOps

variable {F : Type} [Zero F] [One F] [Add F] [Sub F] [Mul F] [Div F] [Neg F] [LT F] [DecidableLT F]
  [LE F] [DecidableLE F] [DecidableEq F] [NatCast F] [IntCast F] [FOps F] {n : Nat}

/-- Ways a call can end without returning. -/
inductive Stop
  | undefined (u : UB)
  /-- `std::length_error`, thrown by `resize` -/
  | lengthError
  deriving DecidableEq, Repr

/-- A call that returns, has undefined behaviour or throws. -/
abbrev Call' (α : Type) := Except Stop α

/-- A computation that does not throw, as part of one that may. -/
def lift' {α : Type} (c : Cxx α) : Call' α :=
  match c with
  | .ok a => .ok a
  | .error u => .error (.undefined u)

/-- Conversion of an `int` to `size_t`. -/
def toSize (x : Int) : Nat := (x % 18446744073709551616).toNat

/-- `a * b` on `size_t`. -/
def smul (a b : Nat) : Nat := a * b % 18446744073709551616

/-- `v.resize(k, a)`: entries that are there stay.  `max_size()` of a vector of `double` is `2^60 - 1`; memory is unlimited. -/
def resize {α : Type} (v : List α) (k : Nat) (a : α) : Call' (List α) :=
  if k ≤ 1152921504606846975 then .ok (v.take k ++ List.replicate (k - v.length) a) else .error .lengthError

/-- Data members (SgFindPointInCell.h:18-66). -/
structure Raw (F : Type) where
  slvr : Option (Solver F)
  coords : List (List F)
  xmins : List F
  xmaxs : List F
  prodDims : List Nat
  nodeProdDims : List Nat
  indexPeriodicity : List F
  dims : List Nat
  targetPoint : List F
  nitermax : Int
  tolpos : F
  iter : Int
  dIndices : List F
  jacMatrix : List F
  rhs : List F
  errorHistory : List F
  oldError : F

/-- Constructor (SgFindPointInCell.h:73-80), for `nitermax` that is not negative. -/
def Raw.new (nitermax : Int) (tolpos : F) : Raw F :=
  { slvr := none, coords := [], xmins := [], xmaxs := [], prodDims := [], nodeProdDims := [], indexPeriodicity := [], dims := []
    targetPoint := [], nitermax := nitermax, tolpos := tolpos, iter := 0, dIndices := [], jacMatrix := [], rhs := []
    errorHistory := [], oldError := big }

/-- Resizing the vectors (SgFindPointInCell.h:101-111). -/
def Raw.resizeAll (s : Raw F) (ndims : Int) : Call' (Raw F) := do
  let n := toSize ndims
  let coords ← resize s.coords n []
  let prodDims ← resize s.prodDims n 0
  let nodeProdDims ← resize s.nodeProdDims n 0
  let dims ← resize s.dims n 0
  let nn ← lift' (imul ndims ndims)
  let jacMatrix ← resize s.jacMatrix (toSize nn) 0
  let rhs ← resize s.rhs n 0
  let dIndices ← resize s.dIndices n 0
  let targetPoint ← resize s.targetPoint n 0
  let xmins ← resize s.xmins n big
  let xmaxs ← resize s.xmaxs n (-big)
  let indexPeriodicity ← resize s.indexPeriodicity n 0
  return { s with coords, prodDims, nodeProdDims, dims, jacMatrix, rhs, dIndices, targetPoint, xmins, xmaxs, indexPeriodicity }

/-- The loop for the periodicity (SgFindPointInCell.h:112-116). -/
def setPeriodicity (n : Nat) (dims periodicity : List Int) (v : List F) : Cxx (List F) :=
  forN n v fun i v => do
    let p ← vget periodicity i
    if p ≠ 0 then
      let d ← vget dims i
      vset v i (d : F)
    else return v

/-- The products (SgFindPointInCell.h:119-124): the loop goes down from `ndims - 2`. -/
def setProducts (n : Nat) (dims : List Int) (prod node : List Nat) : Cxx (List Nat × List Nat) := do
  let prod ← vset prod (n - 1) 1
  let node ← vset node (n - 1) 1
  forN (n - 1) (prod, node) fun k s => do
    let i := n - 2 - k
    let p ← vget s.1 (i + 1)
    let d ← vget dims (i + 1)
    let prod ← vset s.1 i (smul p (toSize d))
    let q ← vget s.2 (i + 1)
    let node ← vset s.2 i (smul q 2)
    return (prod, node)

/-- The total number of nodes, an `int`, and `dims` (SgFindPointInCell.h:127-131). -/
def setDims (n : Nat) (dims : List Int) (v : List Nat) : Cxx (Int × List Nat) :=
  forN n ((1 : Int), v) fun i s => do
    let d ← vget dims i
    let ntot ← imul s.1 d
    let v ← vset s.2 i (toSize d)
    return (ntot, v)

/-- The loop over the nodes for one component (SgFindPointInCell.h:136-140): coordinates, lower and upper bound. -/
def copyCoords (ntot : Nat) (src : List F) (v : List F) (lo hi : F) : Cxx (List F × F × F) :=
  forN ntot (v, lo, hi) fun j s => do
    let c ← vget src j
    let v ← vset s.1 j c
    return (v, if s.2.1 < c then s.2.1 else c, if c < s.2.2 then s.2.2 else c)

/-- One pass of the loop over the components (SgFindPointInCell.h:134-141).  `ntot` may be negative. -/
def Raw.setComponent (ntot : Int) (coords : List (List F)) (i : Nat) (s : Raw F) : Call' (Raw F) := do
  let old ← lift' (vget s.coords i)
  let v ← resize old (toSize ntot) 0
  if ntot ≤ 0 then return { s with coords := s.coords.set i v }
  else
    let src ← lift' (vget coords i)
    let lo ← lift' (vget s.xmins i)
    let hi ← lift' (vget s.xmaxs i)
    let (v, lo, hi) ← lift' (copyCoords ntot.toNat src v lo hi)
    return { s with coords := s.coords.set i v, xmins := s.xmins.set i lo, xmaxs := s.xmaxs.set i hi }

/-- The loop over the components. -/
def Raw.setComponents (ntot : Int) (coords : List (List F)) : Nat → Nat → Raw F → Call' (Raw F)
  | _, 0, s => .ok s
  | i, k + 1, s => do
    let s ← s.setComponent ntot coords i
    s.setComponents ntot coords (i + 1) k

/-- `setGrid` (SgFindPointInCell.h:96-146).  `dims`, `periodicity` and `coords` are the memory behind the pointers. -/
def Raw.setGrid (s : Raw F) (ndims : Int) (dims periodicity : List Int) (coords : List (List F)) : Call' (Raw F) := do
  if ndims ≤ 0 then return s
  else
    let n := ndims.toNat
    let s ← s.resizeAll ndims
    let per ← lift' (setPeriodicity n dims periodicity s.indexPeriodicity)
    let (prod, node) ← lift' (setProducts n dims s.prodDims s.nodeProdDims)
    let (ntot, ds) ← lift' (setDims n dims s.dims)
    let s := { s with indexPeriodicity := per, prodDims := prod, nodeProdDims := node, dims := ds }
    let s ← s.setComponents ntot coords 0 n
    return { s with slvr := some (LinearSolve.new n n) }

end Sg.FindPoint
