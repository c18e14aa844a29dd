import Verif.Model.NodeInterp
import Verif.Model.FindPointRaw
import Verif.Model.ConserveRaw
/-
Model of `SgNodeInterp2D_type` with the integers as they are kept (/repo/cpp/SgNodeInterp2D.h:19-41, 45-47, 61-124, 150-213):
`int` counts, which may be zero or negative, `size_t` products modulo 2^64, and the memory of the caller.  The lines of `setDstGrid`
and `setSrcGrid` after the call of the finder are those of `SgConserveInterp2D_type`, and so is their model, `Conserve.loadGrid`.
-/
namespace Sg.NodeInterp
open Sg.FindPoint Sg.LinearSolve Sg.Conserve

variable {F : Type} [Zero F] [One F] [Add F] [Sub F] [Mul F] [Div F] [Neg F] [LT F] [DecidableLT F]
  [LE F] [DecidableLE F] [DecidableEq F] [NatCast F] [IntCast F] [FOps F]

/-- Members (SgNodeInterp2D.h:19-41).  A grid is `none` before it is set. -/
structure RNode (F : Type) where
  finder : Raw F
  src : Option (RGrid F)
  dst : Option (RGrid F)
  weights : Table F

/-- Constructor (SgNodeInterp2D.h:45-47). -/
def RNode.new (nitermax : Int) (tolpos : F) : RNode F :=
  { finder := Raw.new nitermax tolpos, src := none, dst := none, weights := [] }

/-- `setDstGrid` (SgNodeInterp2D.h:61-87). -/
def RNode.setDstGrid (o : RNode F) (dims : List Int) (coords : List (List F)) : Call' (RNode F) := do
  let gr ← loadGrid dims coords
  return { o with dst := some gr }

/-- `setSrcGrid` (SgNodeInterp2D.h:94-124). -/
def RNode.setSrcGrid (o : RNode F) (dims periodicity : List Int) (coords : List (List F)) : Call' (RNode F) := do
  let f ← o.finder.setGrid 2 dims periodicity coords
  let gr ← loadGrid dims coords
  return { o with finder := f, src := some gr }

/-- The finder with vectors of at least two entries as a finder with two axes; the entries of vectors that are not there count as
what `resize` fills in. -/
def plane (s : Raw F) : Finder F 2 :=
  { slvr := s.slvr
    coords := fun i => s.coords.getD i []
    bounds := if s.xmins = [] then none else some (fun i => s.xmins.getD i FOps.big, fun i => s.xmaxs.getD i (-FOps.big))
    indexPeriodicity := fun i => s.indexPeriodicity.getD i 0
    dims := fun i => s.dims.getD i 0
    targetPoint := fun i => s.targetPoint.getD i 0
    nitermax := s.nitermax, tolpos := s.tolpos, iter := s.iter
    dIndices := fun i => s.dIndices.getD i 0
    errorHistory := s.errorHistory, oldError := s.oldError }

/-- First start position (SgNodeInterp2D.h:155-157); the numbers of cells are `int`. -/
def startIndicesR (cellDims : Int × Int) : Fin 2 → F := fun i =>
  if i = 0 then (cellDims.1 : F) / ((214423 : Nat) / (100000 : Nat)) else (cellDims.2 : F) / ((193265 : Nat) / (100000 : Nat))

/-- Start position for a side (SgNodeInterp2D.h:195-197). -/
def sideIndicesR (cellDims : Int × Int) (side : List Int) : Cxx (Fin 2 → F) :=
  forAxes fun i => do
    let sd ← vget side i
    let k ← iadd sd 1
    let p ← imul k (if i = 0 then cellDims.1 else cellDims.2)
    return (p : F) / (2 : Nat)

/-- The retry loop (SgNodeInterp2D.h:189-200), as `retry`. -/
def retryR (g : Gels F) (cellDims : Int × Int) (target : Fin 2 → F) :
    Nat → SideIterator.SideIt → Finder F 2 → (Fin 2 → F) → Cxx (Int × Finder F 2 × (Fin 2 → F))
  | 0, _, f, d => .ok (1, f, d)
  | fuel + 1, sit, f, _ => do
    let side ← sit.get
    let d ← sideIndicesR cellDims side
    let (ier, f) ← findTarget g f target d
    let (sit, stop) := sit.next
    if stop ≠ 1 ∧ ier ≠ 0 then retryR g cellDims target fuel sit f d else return (ier, f, d)

/-- Body of the loop of `computeWeights` (SgNodeInterp2D.h:159-210). -/
def nodeR (g : Gels F) (src dst : RGrid F) (k : Nat) (s : LoopState F) : Cxx (LoopState F) := do
  let target ← forAxes fun j : Fin 2 => vget dst.coords (sadd (smul k 2) j)
  let (ier, f) ← findTarget g s.finder target s.dIndices
  if ier = 0 then
    let iw ← getSrcIndicesAndWeights f.dims f.dIndices
    return { s with finder := f, weights := s.weights.insert k iw }
  else if ier = -3 then return { s with finder := f }
  else
    let sit ← SideIterator.new 2
    let (ier, f, d) ← retryR g src.cellDims target 9 sit.reset f s.dIndices
    if ier ≠ 0 then
      let _ ← f.getPosition
      let _ ← f.getError
      return { s with finder := f, dIndices := d }
    else return { s with finder := f, dIndices := d }

/-- `computeWeights` (SgNodeInterp2D.h:150-213): the table.  The finder is used through the model of its other functions, in which
counts are not negative: source grids whose counts are both negative are in `Model/NodeInterpRun`. -/
def RNode.computeWeights (g : Gels F) (o : RNode F) : Cxx (Finder F 2 × Table F) :=
  match o.src, o.dst with
  | some src, some dst => do
    let s ← forN dst.numPoints { finder := plane o.finder, dIndices := startIndicesR src.cellDims, weights := [] } (nodeR g src dst)
    return (s.finder, s.weights)
  | _, _ => .error .uninit

end Sg.NodeInterp
