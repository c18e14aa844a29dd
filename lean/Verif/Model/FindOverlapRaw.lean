import Verif.Model.FindOverlap
import Verif.Model.NodeInterpRaw
import Verif.Model.SideIterator
/-
Model of `SgFindOverlappingCells2D_type` with the integers as they are kept (/repo/cpp/SgFindOverlappingCells2D.h:14-204): `int` counts,
which may be zero or negative, `size_t` sizes modulo 2^64, vectors that are empty before they are resized, and the memory of the caller.
The searches use the finder through the model of its other functions, in which counts are not negative: source grids whose counts are
both negative are in `Model/FindOverlapRun`.
-/
namespace Sg.FindOverlap
open Sg.FindPoint Sg.LinearSolve Sg.NodeInterp Sg.Conserve

variable {F : Type} [Zero F] [One F] [Add F] [Sub F] [Mul F] [Div F] [Neg F] [LT F] [DecidableLT F]
  [LE F] [DecidableLE F] [DecidableEq F] [NatCast F] [IntCast F] [FOps F]

/-- Data members (SgFindOverlappingCells2D.h:16-45).  The corners are set at the beginning of each search, before they are read.
`numPolyPoints` is `none` while it is not initialised. -/
structure ROverlap (F : Type) where
  finder : Raw F
  srcNodeDims : List Int
  srcCellProdDims : List Int
  srcCellFlatInds : List Int
  polyPoints : List F
  numPolyPoints : Option Nat
  eps : F

/-- Constructor (SgFindOverlappingCells2D.h:48-57). -/
def ROverlap.new : ROverlap F :=
  { finder := Raw.new 100 (1 / (1000000 : Nat)), srcNodeDims := [], srcCellProdDims := [], srcCellFlatInds := [], polyPoints := []
    numPolyPoints := none, eps := 1 / (100 : Nat) }

/-- `setSrcGrid` (SgFindOverlappingCells2D.h:72-84). -/
def ROverlap.setSrcGrid (o : ROverlap F) (dims periodicity : List Int) (coords : List (List F)) : Call' (ROverlap F) := do
  let d0 ← lift' (vget dims 0)
  let d1 ← lift' (vget dims 1)
  let p ← lift' (imul 1 d1)
  let f ← o.finder.setGrid 2 dims periodicity coords
  return { o with finder := f, srcNodeDims := [d0, d1], srcCellProdDims := [p, 1] }

/-- `setPolygonPoints` (SgFindOverlappingCells2D.h:91-99).  If the call throws, `numPolyPoints` has its new value already; this is not
modelled. -/
def ROverlap.setPolygonPoints (o : ROverlap F) (numPoints : Int) (coords : List F) : Call' (ROverlap F) := do
  let n := toSize numPoints
  let v ← resize o.polyPoints (smul n 2) 0
  let v ← lift' (forN n v fun i v => forN 2 v fun j v => do
    let c ← vget coords (sadd (smul 2 i) j)
    vset v (sadd (smul 2 i) j) c)
  return { o with numPolyPoints := some n, polyPoints := v }

/-- The initial guess (SgFindOverlappingCells2D.h:107). -/
def startIndicesI (d0 d1 : Int) : Fin 2 → F := fun i =>
  if i = 0 then (d0 : F) / ((2123353 : Nat) / (1000000 : Nat)) else (d1 : F) / ((19647354 : Nat) / (10000000 : Nat))

/-- Update of the corners for a position (SgFindOverlappingCells2D.h:151-163); `m j` is `srcNodeDims[j] - 1`. -/
def Corners.updateI (m : Fin 2 → Int) (dInds : Fin 2 → F) (c : Corners F) : Corners F :=
  { lo := fun j =>
      let v := if dInds j < c.lo j then dInds j else c.lo j
      if (0 : F) ≤ v then v else 0
    hi := fun j =>
      let v := if c.hi j < dInds j then dInds j else c.hi j
      if v ≤ (m j : F) then v else (m j : F) }

/-- Body of the loop over the polygon's points (SgFindOverlappingCells2D.h:122-164). -/
def pointR (g : Gels F) (poly : List F) (start : Fin 2 → F) (m : Fin 2 → Int) (i : Nat) (s : Finder F 2 × Corners F) :
    Cxx (Finder F 2 × Corners F) := do
  let target ← forAxes fun j : Fin 2 => vget poly (smul i 2 + j)
  let r ← searchLoop g s.1.fuelOf (s.1.reset start target)
  return (r.2, s.2.updateI m r.2.dIndices)

/-- `findFloatIndexBoxOfPolygon` (SgFindOverlappingCells2D.h:104-167). -/
def ROverlap.findFloatIndexBoxOfPolygon (g : Gels F) (o : ROverlap F) : Cxx (Finder F 2 × Corners F) := do
  let d0 ← vget o.srcNodeDims 0
  let d1 ← vget o.srcNodeDims 1
  let m0 ← isub d0 1
  let m1 ← isub d1 1
  match o.numPolyPoints with
  | none => .error .uninit
  | some n =>
    forN n (plane o.finder, { lo := fun j => ((if j = 0 then m0 else m1 : Int) : F), hi := fun _ => 0 }) fun i s =>
      pointR g o.polyPoints (startIndicesI d0 d1) (fun j => if j = 0 then m0 else m1) i s

/-- The index box (SgFindOverlappingCells2D.h:179-187) along one axis. -/
def boxIndsR (eps : F) (d : Int) (lo hi : F) : Cxx (Int × Int) := do
  let m ← isub d 1
  match FOps.floorI lo, ceilI (hi + eps) with
  | some lo, some hi => .ok (if lo ≥ 0 then lo else 0, if hi < m then hi else m)
  | _, _ => .error .badCast

/-- Flat index of a cell (SgFindOverlappingCells2D.h:197-202): the products are `int`, the sum is a `size_t`, and it is stored as an
`int`. -/
def cellIndxR (prod inds : List Int) : Cxx Int := do
  let k ← forN 2 0 fun j k => do
    let p ← vget prod j
    let i ← vget inds j
    let x ← imul p i
    return sadd k (toSize x)
  return SideIterator.toInt k

/-- The finder's members after searches (targets, positions, iterations, errors and solver change; the matrix and the right hand side are
written before they are read). -/
def putBack (s : Raw F) (f : Finder F 2) : Raw F :=
  { s with slvr := f.slvr, targetPoint := [f.targetPoint 0, f.targetPoint 1], iter := f.iter, dIndices := [f.dIndices 0, f.dIndices 1]
           errorHistory := f.errorHistory, oldError := f.oldError }

/-- `findSrcCellIndices` (SgFindOverlappingCells2D.h:172-204). -/
def ROverlap.findSrcCellIndices (g : Gels F) (o : ROverlap F) : Cxx (ROverlap F) := do
  let (f, c) ← o.findFloatIndexBoxOfPolygon g
  let d0 ← vget o.srcNodeDims 0
  let b0 ← boxIndsR o.eps d0 (c.lo 0) (c.hi 0)
  let d1 ← vget o.srcNodeDims 1
  let b1 ← boxIndsR o.eps d1 (c.lo 1) (c.hi 1)
  let box ← BoxIterator.new [b0, b1]
  let inds ← forN box.getNumberOfElements.toNat [] fun i l => do
    let e ← box.getElement i
    let k ← cellIndxR o.srcCellProdDims e
    return l ++ [k]
  return { o with finder := putBack o.finder f, srcCellFlatInds := inds }

end Sg.FindOverlap
