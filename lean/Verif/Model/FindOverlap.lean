import Verif.Model.FindPoint
import Verif.Model.BoxIterator
/-
Model of `SgFindOverlappingCells2D_type` (/repo/cpp/SgFindOverlappingCells2D.h; the C interface only forwards).
Grids have at least one node per axis; the number of polygon points is not negative (`Model/FindOverlapRaw` has the rest).
-/
namespace Sg.FindOverlap
open Sg.FindPoint Sg.LinearSolve

variable {F : Type} [Zero F] [One F] [Add F] [Sub F] [Mul F] [Div F] [Neg F] [LT F] [DecidableLT F]
  [LE F] [DecidableLE F] [DecidableEq F] [NatCast F] [IntCast F] [FOps F]

/-- Data members (SgFindOverlappingCells2D.h:16-45). -/
structure Overlap (F : Type) where
  finder : Finder F 2
  srcNodeDims : Fin 2 → Nat
  srcCellProdDims : Fin 2 → Nat
  srcCellFlatInds : List Int
  polyPoints : List F
  numPolyPoints : Nat
  eps : F
  /-- `srcNodeDims` has two entries (it is empty before `setSrcGrid`) -/
  gridSet : Bool
  /-- `numPolyPoints` is initialised -/
  polySet : Bool

/-- Constructor (SgFindOverlappingCells2D.h:48-57); `100`, `1.e-6` and `0.01` are the constants. -/
def new : Overlap F :=
  { finder := Finder.new 100 (1 / (1000000 : Nat)), srcNodeDims := fun _ => 0, srcCellProdDims := fun _ => 0
    srcCellFlatInds := [], polyPoints := [], numPolyPoints := 0, eps := 1 / (100 : Nat)
    gridSet := false, polySet := false }

/-- `setSrcGrid` (SgFindOverlappingCells2D.h:72-84).  `srcCellProdDims` is computed from the numbers of nodes. -/
def Overlap.setSrcGrid (o : Overlap F) (dims : Fin 2 → Nat) (per : Fin 2 → Int) (coords : Fin 2 → Nat → F) : Overlap F :=
  { o with
    gridSet := true
    srcNodeDims := dims
    srcCellProdDims := fun j => if j = 0 then 1 * dims 1 else 1
    finder := o.finder.setGrid dims per coords }

/-- `setPolygonPoints` (SgFindOverlappingCells2D.h:91-99). -/
def Overlap.setPolygonPoints (o : Overlap F) (numPoints : Nat) (coords : Nat → F) : Overlap F :=
  { o with polySet := true, numPolyPoints := numPoints, polyPoints := (List.range (2 * numPoints)).map coords }

/-- The initial guess (SgFindOverlappingCells2D.h:107): `{srcNodeDims[0]/2.123353, srcNodeDims[1]/1.9647354}`. -/
def startIndices (dims : Fin 2 → Nat) : Fin 2 → F := fun i =>
  if i = 0 then (dims 0 : F) / ((2123353 : Nat) / (1000000 : Nat)) else (dims 1 : F) / ((19647354 : Nat) / (10000000 : Nat))

/-- Low and high index corners. -/
structure Corners (F : Type) where
  lo : Fin 2 → F
  hi : Fin 2 → F

/-- Update of the corners for a position (SgFindOverlappingCells2D.h:151-163). -/
def Corners.update (dims : Fin 2 → Nat) (dInds : Fin 2 → F) (c : Corners F) : Corners F :=
  { lo := fun j =>
      let v := if dInds j < c.lo j then dInds j else c.lo j
      if (0 : F) ≤ v then v else 0
    hi := fun j =>
      let v := if c.hi j < dInds j then dInds j else c.hi j
      if v ≤ ((dims j - 1 : Nat) : F) then v else ((dims j - 1 : Nat) : F) }

/-- Body of the loop over the polygon's points (SgFindOverlappingCells2D.h:122-164).  The code of the search is not
used. -/
def Overlap.point (g : Gels F) (o : Overlap F) (i : Nat) (s : Finder F 2 × Corners F) : Cxx (Finder F 2 × Corners F) := do
  let target ← forAxes fun j : Fin 2 => vget o.polyPoints (i * 2 + j)
  let r ← searchLoop g s.1.fuelOf (s.1.reset (startIndices o.srcNodeDims) target)
  return (r.2, s.2.update o.srcNodeDims r.2.dIndices)

/-- `findFloatIndexBoxOfPolygon` (SgFindOverlappingCells2D.h:104-167).  The number of nodes is read first, then the number of
points. -/
def Overlap.findFloatIndexBoxOfPolygon (g : Gels F) (o : Overlap F) : Cxx (Finder F 2 × Corners F) :=
  if !o.gridSet then .error .outOfBounds
  else if !o.polySet then .error .uninit
  else forN o.numPolyPoints (o.finder, { lo := fun j => ((o.srcNodeDims j - 1 : Nat) : F), hi := fun _ => 0 })
    fun i s => o.point g i s

/-- `(int) ceil(x)`, as `-floor(-x)`. -/
def ceilI (x : F) : Option Int := (FOps.floorI (-x)).map (- ·)

/-- The index box (SgFindOverlappingCells2D.h:179-187). -/
def Overlap.boxInds (o : Overlap F) (c : Corners F) (j : Fin 2) : Cxx (Int × Int) :=
  match FOps.floorI (c.lo j), ceilI (c.hi j + o.eps) with
  | some lo, some hi =>
    .ok (if lo ≥ 0 then lo else 0, if hi < (o.srcNodeDims j : Int) - 1 then hi else (o.srcNodeDims j : Int) - 1)
  | _, _ => .error .badCast

/-- Flat index of a cell (SgFindOverlappingCells2D.h:197-200).  The products are of type `int`; the sum, a `size_t`, is
converted back to `int`, and kept as an integer here. -/
def Overlap.cellIndx (o : Overlap F) (inds : List Int) : Cxx Int := do
  let i0 ← vget inds 0
  let p0 ← imul (o.srcCellProdDims 0 : Int) i0
  let i1 ← vget inds 1
  let p1 ← imul (o.srcCellProdDims 1 : Int) i1
  return 0 + p0 + p1

/-- `findSrcCellIndices` (SgFindOverlappingCells2D.h:172-204). -/
def Overlap.findSrcCellIndices (g : Gels F) (o : Overlap F) : Cxx (Overlap F) := do
  let (f, c) ← o.findFloatIndexBoxOfPolygon g
  let b0 ← o.boxInds c 0
  let b1 ← o.boxInds c 1
  let box ← BoxIterator.new [b0, b1]
  let inds ← forN box.getNumberOfElements.toNat [] fun i l => do
    let e ← box.getElement i
    let k ← o.cellIndx e
    return l ++ [k]
  return { o with finder := f, srcCellFlatInds := inds }

/-- `getNumberOfSrcCellIndices` (SgFindOverlappingCells2D.cpp:39-43); the size is converted to `int`. -/
def Overlap.getNumberOfSrcCellIndices (o : Overlap F) : Int := o.srcCellFlatInds.length

/-- `getSrcCellIndices` of the C interface (SgFindOverlappingCells2D.cpp:46-50): the array behind the pointer.  `front()` of
an empty vector is undefined. -/
def Overlap.getSrcCellIndices (o : Overlap F) : Cxx (List Int) :=
  if o.srcCellFlatInds = [] then .error .badIterator else .ok o.srcCellFlatInds

end Sg.FindOverlap
