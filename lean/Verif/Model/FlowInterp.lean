import Verif.Model.QuadLineIntersect
import Verif.Model.QuadLineFlows
import Verif.Model.BoxIterator
/-
Model of `SgFlowInterp2D_type` (/repo/cpp/SgFlowInterp2D.h; the C interface /repo/cpp/SgFlowInterp2D.cpp only forwards).
`F` is the scalar type, of which only operations are assumed.  Numbers of nodes are naturals, at least one (in C++ `int`).
Parameters: `g` the linear algebra library, `srt` is `std::sort`, `pert n k i` the perturbation
`pertAmpl*cos(pertAngle)` of component `k` of node `i` of `n` (SgFlowInterp2D.h:72,87-88).  `debug` only prints and is not
modelled; which objects are released is modelled in `Verif/Model/Resources.lean`.
-/
namespace Sg.FlowInterp
open Sg.LinearSolve Sg.Triangulate Sg.QuadIntersect Sg.FindPoint Sg.QuadLine Sg.QuadFlows Sg.BoxIterator

variable {F : Type} [Zero F] [One F] [Add F] [Sub F] [Mul F] [Div F] [Neg F] [LT F] [DecidableLT F]
  [LE F] [DecidableLE F] [DecidableEq F] [NatCast F] [IntCast F] [FOps F]

/-- The members of the source grid (SgFlowInterp2D.h:23-25 and 37-39). -/
structure Src (F : Type) where
  coords : List F
  numPoints : Nat
  numCells : Nat
  nodeIt : Box
  cellIt : Box
  edgeIt0 : Box
  edgeIt1 : Box

/-- The members of the destination grid (SgFlowInterp2D.h:28-30); `dstCellDims` is never read. -/
structure Dst (F : Type) where
  coords : List F
  numCells : Nat

/-- `weights` (SgFlowInterp2D.h:34), by increasing key; the vectors of four numbers are functions. -/
abbrev Weights (F : Type) := List (Nat × List (Nat × (Fin 4 → F)))

/-- Members.  A grid is `none` before it is set. -/
structure Flow (F : Type) where
  src : Option (Src F)
  dst : Option (Dst F)
  weights : Weights F

/-- Constructor (SgFlowInterp2D.h:44-51). -/
def Flow.new : Flow F := { src := none, dst := none, weights := [] }

/-- `setDstGrid` (SgFlowInterp2D.h:70-92), the loop over the two components being unrolled.  The vector is resized first; as
every element is written, zeros stand for what it contained. -/
def Flow.setDstGrid (pert : Nat → Nat → Nat → F) (o : Flow F) (n : Nat) (x y : List F) : Cxx (Flow F) := do
  let v ← forN n (List.replicate (2 * n) (0 : F)) fun i v => do
    let c ← vget x i
    vset v (i * 2 + 0) (c + pert n 0 i)
  let v ← forN n v fun i v => do
    let c ← vget y i
    vset v (i * 2 + 1) (c + pert n 1 i)
  return { o with dst := some { coords := v, numCells := n - 1 } }

/-- `setSrcGrid` (SgFlowInterp2D.h:99-124). -/
def Flow.setSrcGrid (o : Flow F) (dims : Nat × Nat) (x y : List F) : Cxx (Flow F) := do
  let numPoints ← imul dims.1 dims.2
  let numCells ← imul ((dims.1 : Int) - 1) ((dims.2 : Int) - 1)
  let nodeIt ← BoxIterator.new [(0, (dims.1 : Int)), (0, (dims.2 : Int))]
  let cellIt ← BoxIterator.new [(0, (dims.1 : Int) - 1), (0, (dims.2 : Int) - 1)]
  let edgeIt0 ← BoxIterator.new [(0, (dims.1 : Int) - 1), (0, (dims.2 : Int))]
  let edgeIt1 ← BoxIterator.new [(0, (dims.1 : Int)), (0, (dims.2 : Int) - 1)]
  let n := numPoints.toNat
  let v ← forN n (List.replicate (2 * n) (0 : F)) fun i v => do
    let c ← vget x i
    vset v (i * 2 + 0) c
  let v ← forN n v fun i v => do
    let c ← vget y i
    vset v (i * 2 + 1) c
  return { o with src := some { coords := v, numPoints := n, numCells := numCells.toNat, nodeIt := nodeIt, cellIt := cellIt,
                                edgeIt0 := edgeIt0, edgeIt1 := edgeIt1 } }

/-- Coordinates of a node of the line (SgFlowInterp2D.h:304-308); the index is a `size_t`. -/
def nodeCoord (coords : List F) (n : Int) : Cxx (Pt F) := do
  let x ← vgetI coords (n * 2 + 0)
  let y ← vgetI coords (n * 2 + 1)
  return (x, y)

/-- Coordinates of a node of the source grid (SgFlowInterp2D.h:334-339); the index and its product with `NDIMS_2D_PHYS`, which
is the literal `2`, are of type `int`. -/
def srcNodeCoord (coords : List F) (n : Int) : Cxx (Pt F) := do
  let k ← imul n 2
  let x ← vgetI coords (k + 0)
  let y ← vgetI coords (k + 1)
  return (x, y)

/-- `getDstLineCoord` (SgFlowInterp2D.h:300-310). -/
def Dst.lineCoord (d : Dst F) (indx : Nat) : Cxx (Pt F × Pt F) := do
  let a ← nodeCoord d.coords ((indx + 0 : Nat) : Int)
  let b ← nodeCoord d.coords ((indx + 1 : Nat) : Int)
  return (a, b)

/-- `offset2D` (SgFlowInterp2D.h:191-194). -/
def offset2D (i : Fin 4) : Int × Int :=
  match i with | 0 => (0, 0) | 1 => (1, 0) | 2 => (1, 1) | 3 => (0, 1)

/-- The node of a cell with one offset (SgFlowInterp2D.h:328-339). -/
def Src.corner (s : Src F) (c0 c1 : Int) (i : Fin 4) : Cxx (Pt F) := do
  let i0 ← iadd c0 (offset2D i).1
  let i1 ← iadd c1 (offset2D i).2
  let nodeIndx ← s.nodeIt.getIndex [i0, i1]
  srcNodeCoord s.coords nodeIndx

/-- `getSrcQuadCoord` (SgFlowInterp2D.h:319-341), the loop over the four nodes being unrolled. -/
def Src.quadCoord (s : Src F) (indx : Nat) : Cxx (Quad F) := do
  let cellInds ← s.cellIt.getElement (indx : Int)
  let c0 ← vget cellInds 0
  let c1 ← vget cellInds 1
  let p0 ← s.corner c0 c1 0
  let p1 ← s.corner c0 c1 1
  let p2 ← s.corner c0 c1 2
  let p3 ← s.corner c0 c1 3
  return fun i => match i with | 0 => p0 | 1 => p1 | 2 => p2 | 3 => p3

/-- `find`, `insert` of an empty entry if there is none, and `push_back` (SgFlowInterp2D.h:231-242 and 261-262). -/
def Weights.push (t : Weights F) (k : Nat) (e : Nat × (Fin 4 → F)) : Weights F :=
  match t with
  | [] => [(k, [e])]
  | (k', l) :: t => if k < k' then (k, [e]) :: (k', l) :: t else if k' < k then (k', l) :: Weights.push t k e
    else (k', l ++ [e]) :: t

/-- The sum of the projections of the pieces between consecutive points (SgFlowInterp2D.h:245-258); the code of
`computeProjections` is not looked at. -/
def pieces (g : Gels F) (points : List (Pt F)) (f : Flows F) : Cxx (Flows F × (Fin 4 → F)) :=
  forN (points.length - 1) (f, fun _ => (0 : F)) fun i s => do
    let a ← vget points i
    let b ← vget points (i + 1)
    let (f, _) ← (s.1.setLinePoints a b).computeProjections g
    let p0 ← f.getProjection 0
    let p1 ← f.getProjection 1
    let p2 ← f.getProjection 2
    let p3 ← f.getProjection 3
    return (f, fun e => match e with | 0 => s.2 0 + p0 | 1 => s.2 1 + p1 | 2 => s.2 2 + p2 | 3 => s.2 3 + p3)

/-- Objects in use and weights. -/
structure Work (F : Type) where
  isect : Line F
  proj : Flows F
  weights : Weights F

/-- The body of the loop over the source cells (SgFlowInterp2D.h:208-264). -/
def srcStep (g : Gels F) (srt : List F → List F) (src : Src F) (dstIndx : Nat) (srcIndx : Nat) (w : Work F) : Cxx (Work F) := do
  let is := w.isect.reset
  let q ← src.quadCoord srcIndx
  let is := is.setQuadPoints q
  let overlap ← is.checkIfOverlap
  if !overlap then return { w with isect := is }
  else
    let (is, points) ← is.collectIntersectPoints g srt
    if 2 ≤ points.length then
      let (f, p) ← pieces g points (w.proj.setQuadPoints q)
      return { isect := is, proj := f, weights := Weights.push w.weights dstIndx (srcIndx, p) }
    else return { w with isect := is }

/-- The body of the loop over the destination segments (SgFlowInterp2D.h:200-265). -/
def dstStep (g : Gels F) (srt : List F → List F) (src : Src F) (dst : Dst F) (dstIndx : Nat) (w : Work F) : Cxx (Work F) := do
  let (a, b) ← dst.lineCoord dstIndx
  forN src.numCells { w with isect := w.isect.setLinePoints a b } (srcStep g srt src dstIndx)

/-- `computeWeights` (SgFlowInterp2D.h:186-267).  Without a destination grid the number of segments is not set, without a
source grid the number of cells, which is read for the first segment, if there is one. -/
def Flow.computeWeights (g : Gels F) (srt : List F → List F) (o : Flow F) : Cxx (Flow F) :=
  match o.dst, o.src with
  | some dst, some src => do
    let w ← forN dst.numCells { isect := Line.new, proj := Flows.new, weights := o.weights } (dstStep g srt src dst)
    return { o with weights := w.weights }
  | some dst, none => if dst.numCells = 0 then .ok o else .error .uninit
  | none, _ => .error .uninit

/-- `offset` in `apply` (SgFlowInterp2D.h:135-140). -/
def sideOffset (side : Nat) : Int × Int :=
  match side with | 0 => (0, 0) | 1 => (0, 1) | 2 => (0, 0) | _ => (1, 0)

/-- One side of a cell (SgFlowInterp2D.h:165-178). -/
def sideStep (src : Src F) (x y : List F) (i0 i1 : Int) (dst : Nat) (w : Fin 4 → F) (side : Nat) (d : List F) : Cxx (List F) := do
  let j0 ← iadd i0 (sideOffset side).1
  let j1 ← iadd i1 (sideOffset side).2
  let index ← (if side / 2 = 0 then src.edgeIt0 else src.edgeIt1).getIndex [j0, j1]
  let v ← vget d dst
  let s ← vgetI (if side / 2 = 0 then x else y) index
  vset d dst (v + w (node side) * s)

/-- `apply` (SgFlowInterp2D.h:131-181); `x` and `y` are `srcData[0]` and `srcData[1]`. -/
def Flow.apply (o : Flow F) (x y dstData : List F) : Cxx (List F) :=
  o.weights.foldlM (fun d e => do
    let d ← vset d e.1 0
    e.2.foldlM (fun d p => do
      match o.src with
      | none => .error .nullDeref
      | some src =>
        let inds ← src.cellIt.getElement (p.1 : Int)
        let i0 ← vget inds 0
        let i1 ← vget inds 1
        forN 4 d (sideStep src x y i0 i1 e.1 p.2)) d) dstData

end Sg.FlowInterp
