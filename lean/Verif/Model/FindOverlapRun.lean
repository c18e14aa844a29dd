import Verif.Model.FindOverlapRaw
import Verif.Model.NodeInterpRun
/-
Model of `SgFindOverlappingCells2D_type` on the vectors of the object (/repo/cpp/SgFindOverlappingCells2D.h:14-212, the C interface
SgFindOverlappingCells2D.cpp only forwards): the searches use the finder with its vectors (`Model/FindPointRun`), the corners of the index
box are vectors that are changed in place, and the target is a pointer into the points of the polygon.
-/
namespace Sg.FindOverlap
open Sg.FindPoint Sg.LinearSolve Sg.NodeInterp

variable {F : Type} [Zero F] [One F] [Add F] [Sub F] [Mul F] [Div F] [Neg F] [LT F] [DecidableLT F]
  [LE F] [DecidableLE F] [DecidableEq F] [NatCast F] [IntCast F] [FOps F]

/-- Data members (SgFindOverlappingCells2D.h:16-45): the corners, and all others in `base`. -/
structure VOverlap (F : Type) where
  base : ROverlap F
  loIndxCorner : List F
  hiIndxCorner : List F

/-- Constructor (SgFindOverlappingCells2D.h:48-57). -/
def VOverlap.new : VOverlap F := { base := ROverlap.new, loIndxCorner := [0, 0], hiIndxCorner := [0, 0] }

/-- `setSrcGrid` (SgFindOverlappingCells2D.h:72-84). -/
def VOverlap.setSrcGrid (o : VOverlap F) (dims periodicity : List Int) (coords : List (List F)) : Call' (VOverlap F) := do
  let b ← o.base.setSrcGrid dims periodicity coords
  return { o with base := b }

/-- `setPolygonPoints` (SgFindOverlappingCells2D.h:91-99). -/
def VOverlap.setPolygonPoints (o : VOverlap F) (numPoints : Int) (coords : List F) : Call' (VOverlap F) := do
  let b ← o.base.setPolygonPoints numPoints coords
  return { o with base := b }

/-- The corners at the beginning (SgFindOverlappingCells2D.h:110-113). -/
def cornersInit (dims : List Int) (c : List F × List F) : Cxx (List F × List F) :=
  forN 2 c fun j c => do
    let d ← vget dims j
    let m ← isub d 1
    let lo ← vset c.1 j (m : F)
    let hi ← vset c.2 j 0
    return (lo, hi)

/-- Update of the corners for a position (SgFindOverlappingCells2D.h:150-163), in place. -/
def cornersUpdate (dims : List Int) (dInds : List F) (c : List F × List F) : Cxx (List F × List F) :=
  forN c.1.length c fun j c => do
    let d ← vget dInds j
    let l ← vget c.1 j
    let lo ← vset c.1 j (if d < l then d else l)
    let h ← vget c.2 j
    let hi ← vset c.2 j (if h < d then d else h)
    let l ← vget lo j
    let lo ← vset lo j (if (0 : F) ≤ l then l else 0)
    let h ← vget hi j
    let n ← vget dims j
    let m ← isub n 1
    let hi ← vset hi j (if h ≤ (m : F) then h else (m : F))
    return (lo, hi)

/-- Body of the loop over the polygon's points (SgFindOverlappingCells2D.h:122-164). -/
def pointV (g : Gels F) (poly : List F) (dims : List Int) (start : List F) (i : Nat) (s : Raw F × List F × List F) :
    Cxx (Raw F × List F × List F) := do
  let target := poly.drop (smul i 2)
  let fuel := (max s.1.nitermax 1).toNat
  let f ← s.1.reset start target
  let r ← searchV g fuel f
  let c ← cornersUpdate dims r.2.dIndices s.2
  return (r.2, c)

/-- `findFloatIndexBoxOfPolygon` (SgFindOverlappingCells2D.h:104-167). -/
def VOverlap.findFloatIndexBoxOfPolygon (g : Gels F) (o : VOverlap F) : Cxx (Raw F × List F × List F) := do
  let d0 ← vget o.base.srcNodeDims 0
  let d1 ← vget o.base.srcNodeDims 1
  let c ← cornersInit o.base.srcNodeDims (o.loIndxCorner, o.hiIndxCorner)
  match o.base.numPolyPoints with
  | none => .error .uninit
  | some n =>
    forN n (o.base.finder, c) (pointV g o.base.polyPoints o.base.srcNodeDims
      [(d0 : F) / ((2123353 : Nat) / (1000000 : Nat)), (d1 : F) / ((19647354 : Nat) / (10000000 : Nat))])

/-- The index box (SgFindOverlappingCells2D.h:179-187) along one axis. -/
def boxIndsV (eps : F) (dims : List Int) (c : List F × List F) (j : Nat) : Cxx (Int × Int) := do
  let l ← vget c.1 j
  let lo ← floorInt l
  let h ← vget c.2 j
  match ceilI (h + eps) with
  | none => .error .badCast
  | some hi =>
    let d ← vget dims j
    let m ← isub d 1
    return (if lo ≥ 0 then lo else 0, if hi < m then hi else m)

/-- `findSrcCellIndices` (SgFindOverlappingCells2D.h:172-204). -/
def VOverlap.findSrcCellIndices (g : Gels F) (o : VOverlap F) : Cxx (VOverlap F) := do
  let (f, c) ← o.findFloatIndexBoxOfPolygon g
  let b0 ← boxIndsV o.base.eps o.base.srcNodeDims c 0
  let b1 ← boxIndsV o.base.eps o.base.srcNodeDims c 1
  let box ← BoxIterator.new [b0, b1]
  let inds ← forN box.getNumberOfElements.toNat [] fun i l => do
    let e ← box.getElement i
    let k ← cellIndxR o.base.srcCellProdDims e
    return l ++ [k]
  return { base := { o.base with finder := f, srcCellFlatInds := inds }, loIndxCorner := c.1, hiIndxCorner := c.2 }

end Sg.FindOverlap
