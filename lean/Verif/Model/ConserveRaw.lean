import Verif.Model.ConserveInterp
import Verif.Model.FindPointRaw
import Verif.Model.SideIterator
/-
Model of `SgConserveInterp2D_type` with the integers as they are kept (/repo/cpp/SgConserveInterp2D.h:18-48, 65-128, 154-331,
370-436): `int` counts, which may be zero or negative, `size_t` products modulo 2^64, indices reported as `int`, and the memory of
the caller.  The geometry is that of `Model/ConserveInterp`.
-/
namespace Sg.Conserve
open Sg.LinearSolve Sg.Triangulate Sg.QuadIntersect Sg.FindPoint

variable {F : Type} [Zero F] [One F] [Add F] [Sub F] [Mul F] [Div F] [Neg F] [LT F] [DecidableLT F] [LE F] [DecidableLE F]
  [NatCast F]

/-- The members of one grid (SgConserveInterp2D.h:19-39). -/
structure RGrid (F : Type) where
  nodeDims : Int × Int
  cellDims : Int × Int
  cellDimProd : Int × Int
  nodeDimProd : Int × Int
  coords : List F
  numPoints : Nat
  numCells : Nat

/-- `setDstGrid` and the same lines of `setSrcGrid` (SgConserveInterp2D.h:65-91 and 102-127).  `dims` and `coords` are the memory
behind the pointers.  The vector is resized first; as every element is written, zeros stand for what it contained. -/
def loadGrid (dims : List Int) (coords : List (List F)) : Call' (RGrid F) := do
  let d0 ← lift' (vget dims 0)
  let c0 ← lift' (isub d0 1)
  let d1 ← lift' (vget dims 1)
  let c1 ← lift' (isub d1 1)
  let numPoints := smul (smul 1 (toSize d0)) (toSize d1)
  let numCells := smul (smul 1 (toSize c0)) (toSize c1)
  let cellDimProd0 ← lift' (imul 1 c1)
  let nodeDimProd0 ← lift' (imul 1 d1)
  let v ← resize ([] : List F) (smul 2 numPoints) 0
  let v ← lift' (forN numPoints v fun i v => do
    let x ← vget coords 0
    let c ← vget x i
    vset v (i * 2 + 0) c)
  let v ← lift' (forN numPoints v fun i v => do
    let y ← vget coords 1
    let c ← vget y i
    vset v (i * 2 + 1) c)
  return { nodeDims := (d0, d1), cellDims := (c0, c1), cellDimProd := (cellDimProd0, 1), nodeDimProd := (nodeDimProd0, 1)
           coords := v, numPoints := numPoints, numCells := numCells }

/-- Sum on `size_t`. -/
def sadd (a b : Nat) : Nat := (a + b) % 18446744073709551616

/-- Coordinates of a node (SgConserveInterp2D.h:402-404). -/
def RGrid.nodeCoord (gr : RGrid F) (n : Nat) : Cxx (Pt F) := do
  let x ← vget gr.coords (sadd (smul n 2) 0)
  let y ← vget gr.coords (sadd (smul n 2) 1)
  return (x, y)

/-- `getDstQuadCoord` and `getSrcQuadCoord` (SgConserveInterp2D.h:385-406 and 415-436): the `int` members are converted to
`size_t`. -/
def RGrid.quadCoord (gr : RGrid F) (indx : Nat) : Cxx ((Fin 4 → Nat) × Quad F) := do
  let q0 ← udiv indx (toSize gr.cellDimProd.1)
  let c0 ← umod q0 (toSize gr.cellDims.1)
  let q1 ← udiv indx (toSize gr.cellDimProd.2)
  let c1 ← umod q1 (toSize gr.cellDims.2)
  let nodeIndx : Fin 4 → Nat := fun i =>
    sadd (sadd 0 (smul (toSize gr.nodeDimProd.1) (sadd c0 (offset i).1))) (smul (toSize gr.nodeDimProd.2) (sadd c1 (offset i).2))
  let p0 ← gr.nodeCoord (nodeIndx 0)
  let p1 ← gr.nodeCoord (nodeIndx 1)
  let p2 ← gr.nodeCoord (nodeIndx 2)
  let p3 ← gr.nodeCoord (nodeIndx 3)
  return (nodeIndx, fun i => match i with | 0 => p0 | 1 => p1 | 2 => p2 | 3 => p3)

/-- Members (SgConserveInterp2D.h:18-48), as in `Interp`. -/
structure RInterp (F : Type) where
  src : Option (RGrid F)
  dst : Option (RGrid F)
  weights : Table F
  it : Option Nat
  it2 : Option Nat

/-- `setDstGrid` (SgConserveInterp2D.h:65-91). -/
def RInterp.setDstGrid (o : RInterp F) (dims : List Int) (coords : List (List F)) : Call' (RInterp F) := do
  let gr ← loadGrid dims coords
  return { o with dst := some gr }

/-- `setSrcGrid` (SgConserveInterp2D.h:98-128); two flags are read and stored, and never used. -/
def RInterp.setSrcGrid (o : RInterp F) (dims periodicity : List Int) (coords : List (List F)) : Call' (RInterp F) := do
  let _ ← lift' (vget periodicity 0)
  let _ ← lift' (vget periodicity 1)
  let gr ← loadGrid dims coords
  return { o with src := some gr }

/-- The body of the loop over the source cells (SgConserveInterp2D.h:191-324). -/
def srcStepR (g : Gels F) (sort : List (Pt F) → List (Pt F)) (mode : Mode) (src : RGrid F) (dstIndx : Nat)
    (dn : Fin 4 → Nat) (dstQuad : Quad F) (dstArea : F) (srcIndx : Nat) (s : Work F × List (Nat × F)) :
    Cxx (Work F × List (Nat × F)) := do
  let (sn, srcQuad) ← src.quadCoord srcIndx
  let is := s.1.1.reset.setQuadPoints dstQuad srcQuad
  let overlap ← is.checkIfBoxesOverlap
  if overlap then
    let w ← pairStep g dstIndx srcIndx dn dstQuad sn srcQuad (is, s.1.2)
    if 3 ≤ w.1.pts.length then
      let area ← hullArea mode (sort w.1.pts)
      return (w, s.2 ++ [(srcIndx, area / dstArea)])
    else return (w, s.2)
  else return ((is, s.1.2), s.2)

/-- The body of the loop over the destination cells (SgConserveInterp2D.h:180-330). -/
def dstStepR (g : Gels F) (sort : List (Pt F) → List (Pt F)) (mode : Mode) (src dst : RGrid F) (dstIndx : Nat)
    (s : Work F × Table F) : Cxx (Work F × Table F) := do
  let (dn, dstQuad) ← dst.quadCoord dstIndx
  let dstArea ← hullArea mode (sort [dstQuad 0, dstQuad 1, dstQuad 2, dstQuad 3])
  let (w, indWght) ← forN src.numCells (s.1, []) (srcStepR g sort mode src dstIndx dn dstQuad dstArea)
  return (w, if 0 < indWght.length then Table.insert s.2 dstIndx indWght else s.2)

/-- `computeWeights` (SgConserveInterp2D.h:154-331).  The number of destination cells is read first; the source is read for each
of them. -/
def RInterp.computeWeights (g : Gels F) (sort : List (Pt F) → List (Pt F)) (mode : Mode) (o : RInterp F) : Cxx (RInterp F) := do
  match o.dst, o.src with
  | some dst, some src =>
    let (_, t) ← forN dst.numCells ((Isect.new, Cache.empty), o.weights) (dstStepR g sort mode src dst)
    return { o with weights := t }
  | some dst, none => if dst.numCells = 0 then return o else .error .uninit
  | none, _ => .error .uninit

/-- The parts of an object the iteration works on. -/
def RInterp.toInterp (o : RInterp F) : Interp F :=
  { src := o.src.map fun gr => { nodeDims := (gr.nodeDims.1.toNat, gr.nodeDims.2.toNat), coords := gr.coords }
    dst := o.dst.map fun gr => { nodeDims := (gr.nodeDims.1.toNat, gr.nodeDims.2.toNat), coords := gr.coords }
    weights := o.weights, it := o.it, it2 := o.it2 }

/-- `get` (SgConserveInterp2D.h:370-374): the indices are converted to `int`. -/
def getInt (o : Interp F) : Cxx (Int × Int × F) := do
  let (dst, src, w) ← o.get
  return (SideIterator.toInt dst, SideIterator.toInt src, w)

end Sg.Conserve
