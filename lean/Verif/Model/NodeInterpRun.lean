import Verif.Model.NodeInterpRaw
import Verif.Model.FindPointRun
/-
Model of `SgNodeInterp2D_type` on the vectors and maps of the object (/repo/cpp/SgNodeInterp2D.h:17-241, the C interface
SgNodeInterp2D.cpp only forwards): `computeWeights` uses the finder with its vectors (`Model/FindPointRun`), the start of a search is a
vector that is changed in place, the target is a pointer into the destination coordinates, and the table has `size_t` indices.
`Model/NodeInterp` has the same methods with functions of the axis.
-/
namespace Sg.NodeInterp
open Sg.FindPoint Sg.LinearSolve Sg.Conserve

variable {F : Type} [Zero F] [One F] [Add F] [Sub F] [Mul F] [Div F] [Neg F] [LT F] [DecidableLT F]
  [LE F] [DecidableLE F] [DecidableEq F] [NatCast F] [IntCast F] [FOps F]

/-- `std::map<size_t, std::vector<std::pair<size_t, double> > >` in increasing order of the key. -/
abbrev VTable (F : Type) := List (Nat × List (Nat × F))

/-- `insert` of a pair (SgNodeInterp2D.h:173): an existing entry stays. -/
def VTable.insert (t : VTable F) (k : Nat) (v : List (Nat × F)) : VTable F :=
  match t with
  | [] => [(k, v)]
  | (k', v') :: t => if k < k' then (k, v) :: (k', v') :: t else if k = k' then (k', v') :: t
      else (k', v') :: VTable.insert t k v
termination_by structural t

/-- Members (SgNodeInterp2D.h:19-41).  A grid is `none` before it is set. -/
structure VNode (F : Type) where
  finder : Raw F
  src : Option (RGrid F)
  dst : Option (RGrid F)
  weights : VTable F

/-- Constructor (SgNodeInterp2D.h:45-47). -/
def VNode.new (nitermax : Int) (tolpos : F) : VNode F :=
  { finder := Raw.new nitermax tolpos, src := none, dst := none, weights := [] }

/-- `setDstGrid` (SgNodeInterp2D.h:61-87). -/
def VNode.setDstGrid (o : VNode F) (dims : List Int) (coords : List (List F)) : Call' (VNode F) := do
  let gr ← loadGrid dims coords
  return { o with dst := some gr }

/-- `setSrcGrid` (SgNodeInterp2D.h:94-124). -/
def VNode.setSrcGrid (o : VNode F) (dims periodicity : List Int) (coords : List (List F)) : Call' (VNode F) := do
  let f ← o.finder.setGrid 2 dims periodicity coords
  let gr ← loadGrid dims coords
  return { o with finder := f, src := some gr }

/-- `while (!stop) stop = next();` (SgNodeInterp2D.h:232-234).  `fuel` bounds the number of calls. -/
def searchV (g : Gels F) : Nat → Raw F → Cxx (Int × Raw F)
  | 0, s => .ok (0, s)
  | k + 1, s => do
    let r ← s.next g
    if r.1 = 0 then searchV g k r.2 else return r

/-- `findTarget` (SgNodeInterp2D.h:225-241): the code and the finder; `target` and `dIndices` are the memory behind the pointers.  A
search ends within `nitermax` calls, at least one. -/
def findTargetV (g : Gels F) (s : Raw F) (target dIndices : List F) : Cxx (Int × Raw F) := do
  let fuel := (max s.nitermax 1).toNat
  let s ← s.reset dIndices target
  let r ← searchV g fuel s
  return (if r.1 > 0 then 0 else r.1, r.2)

/-- First start position (SgNodeInterp2D.h:155-157). -/
def startV (cellDims : Int × Int) : List F :=
  [(cellDims.1 : F) / ((214423 : Nat) / (100000 : Nat)), (cellDims.2 : F) / ((193265 : Nat) / (100000 : Nat))]

/-- Start position for a side, in place (SgNodeInterp2D.h:195-197). -/
def sideV (cellDims : Int × Int) (side : List Int) (d : List F) : Cxx (List F) :=
  forN 2 d fun i d => do
    let sd ← vget side i
    let k ← iadd sd 1
    let p ← imul k (if i = 0 then cellDims.1 else cellDims.2)
    vset d i ((p : F) / (2 : Nat))

/-- The retry loop (SgNodeInterp2D.h:189-200): last code, finder, start position.  The iterator has 9 elements. -/
def retryV (g : Gels F) (cellDims : Int × Int) (target : List F) :
    Nat → SideIterator.SideIt → Raw F → List F → Cxx (Int × Raw F × List F)
  | 0, _, s, d => .ok (1, s, d)
  | fuel + 1, sit, s, d => do
    let side ← sit.get
    let d ← sideV cellDims side d
    let (ier, s) ← findTargetV g s target d
    let (sit, stop) := sit.next
    if stop ≠ 1 ∧ ier ≠ 0 then retryV g cellDims target fuel sit s d else return (ier, s, d)

/-- Variables of the loop of `computeWeights`. -/
structure VState (F : Type) where
  finder : Raw F
  dIndices : List F
  weights : VTable F

/-- Body of the loop of `computeWeights` (SgNodeInterp2D.h:159-210).  Messages are left out, but for the reads they make. -/
def nodeV (g : Gels F) (src dst : RGrid F) (k : Nat) (s : VState F) : Cxx (VState F) := do
  let target := dst.coords.drop (smul k 2)
  let (ier, f) ← findTargetV g s.finder target s.dIndices
  if ier = 0 then
    let iw ← f.getSrcIndicesAndWeights f.dIndices
    return { s with finder := f, weights := s.weights.insert k iw }
  else if ier = -3 then
    let _ ← vget target 0
    let _ ← vget target 1
    let b ← f.getSrcDomain
    let _ ← vget b.1 0
    let _ ← vget b.1 1
    let _ ← vget b.2 0
    let _ ← vget b.2 1
    return { s with finder := f }
  else
    let sit ← SideIterator.new 2
    let (ier, f, d) ← retryV g src.cellDims target 9 sit.reset f s.dIndices
    if ier ≠ 0 then
      let _ ← vget target 0
      let _ ← vget target 1
      let pos ← f.getPosition
      let _ ← vget pos 0
      let _ ← vget pos 1
      let _ ← f.getError
      return { s with finder := f, dIndices := d }
    else return { s with finder := f, dIndices := d }

/-- `computeWeights` (SgNodeInterp2D.h:150-213).  Sizes that were never set are read. -/
def VNode.computeWeights (g : Gels F) (o : VNode F) : Cxx (VNode F) :=
  match o.src, o.dst with
  | some src, some dst => do
    let s ← forN dst.numPoints { finder := o.finder, dIndices := startV src.cellDims, weights := [] } (nodeV g src dst)
    return { o with finder := s.finder, weights := s.weights }
  | _, _ => .error .uninit

/-- Inner loop of `apply` (SgNodeInterp2D.h:138-143). -/
def applyV (srcData : List F) (k : Nat) (iv : List (Nat × F)) (dst : List F) : Cxx (List F) := do
  let dst ← vset dst k 0
  iv.foldlM (fun dst e => do
    let v ← vget srcData e.1
    let old ← vget dst k
    vset dst k (old + e.2 * v)) dst

/-- `apply` (SgNodeInterp2D.h:131-145): the destination data afterwards. -/
def VNode.apply (o : VNode F) (srcData dstData : List F) : Cxx (List F) :=
  o.weights.foldlM (fun dst e => applyV srcData e.1 e.2 dst) dstData

end Sg.NodeInterp
