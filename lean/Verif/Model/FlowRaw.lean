import Verif.Model.FlowInterp
import Verif.Model.FindPointRaw
/-
The grids of `SgFlowInterp2D_type` with the integers as they are kept (/repo/cpp/SgFlowInterp2D.h:23-39, 70-124): `int` counts, which
may be zero or negative, `size_t` numbers modulo 2^64, and the memory of the caller.  The members and the other functions are those of
`Model/FlowInterp`.
-/
namespace Sg.FlowInterp
open Sg.FindPoint Sg.BoxIterator

variable {F : Type} [Zero F] [One F] [Add F] [Sub F] [Mul F] [Div F] [Neg F] [LT F] [DecidableLT F]
  [LE F] [DecidableLE F] [DecidableEq F] [NatCast F] [IntCast F] [FOps F]

/-- `setDstGrid` (SgFlowInterp2D.h:70-92).  `dims` and `coords` are the memory behind the pointers.  The vector is resized first; as
every element is written, zeros stand for what it contained. -/
def Flow.setDstGridR (pert : Nat → Nat → Nat → F) (o : Flow F) (dims : List Int) (coords : List (List F)) : Call' (Flow F) := do
  let d ← lift' (vget dims 0)
  let c ← lift' (isub d 1)
  let n := smul 1 (toSize d)
  let numCells := smul 1 (toSize c)
  let v ← resize ([] : List F) (smul 2 n) 0
  let v ← lift' (forN n v fun i v => do
    let x ← vget coords 0
    let c ← vget x i
    vset v (i * 2 + 0) (c + pert n 0 i))
  let v ← lift' (forN n v fun i v => do
    let y ← vget coords 1
    let c ← vget y i
    vset v (i * 2 + 1) (c + pert n 1 i))
  return { o with dst := some { coords := v, numCells := numCells } }

/-- `setSrcGrid` (SgFlowInterp2D.h:99-124).  If `resize` throws, the members set before stay; the object is not looked at then. -/
def Flow.setSrcGridR (o : Flow F) (dims : List Int) (coords : List (List F)) : Call' (Flow F) := do
  let d0 ← lift' (vget dims 0)
  let d1 ← lift' (vget dims 1)
  let numPoints ← lift' (imul d0 d1)
  let c0 ← lift' (isub d0 1)
  let c1 ← lift' (isub d1 1)
  let numCells ← lift' (imul c0 c1)
  let nodeIt ← lift' (BoxIterator.new [(0, d0), (0, d1)])
  let cellIt ← lift' (BoxIterator.new [(0, c0), (0, c1)])
  let edgeIt0 ← lift' (BoxIterator.new [(0, c0), (0, d1)])
  let edgeIt1 ← lift' (BoxIterator.new [(0, d0), (0, c1)])
  let n := toSize numPoints
  let v ← resize ([] : List F) (smul 2 n) 0
  let v ← lift' (forN n v fun i v => do
    let x ← vget coords 0
    let c ← vget x i
    vset v (i * 2 + 0) c)
  let v ← lift' (forN n v fun i v => do
    let y ← vget coords 1
    let c ← vget y i
    vset v (i * 2 + 1) c)
  return { o with src := some { coords := v, numPoints := n, numCells := toSize numCells, nodeIt := nodeIt, cellIt := cellIt,
                                edgeIt0 := edgeIt0, edgeIt1 := edgeIt1 } }

end Sg.FlowInterp
