import Verif.Model.FindPoint
import Verif.Model.SideIterator
/-
Model of `SgNodeInterp2D_type` (/repo/cpp/SgNodeInterp2D.h; the C interface /repo/cpp/SgNodeInterp2D.cpp only
forwards).  Grids have at least one node per axis.  Warnings and error messages are left out, but for the reads
they make.  Not modelled: `getDstQuadCoord` and `getSrcQuadCoord` (SgNodeInterp2D.h:249-300), which are never called.
-/
namespace Sg.NodeInterp
open Sg.FindPoint Sg.LinearSolve

variable {F : Type} [Zero F] [One F] [Add F] [Sub F] [Mul F] [Div F] [Neg F] [LT F] [DecidableLT F]
  [LE F] [DecidableLE F] [DecidableEq F] [NatCast F] [IntCast F] [FOps F]

/-- Interpolation table: destination node, list of source nodes and weights, in increasing order of the key
(`std::map`). -/
abbrev Table (F : Type) := List (Nat × List (Int × F))

/-- `std::map::insert` of a pair: keys sorted, an existing entry stays. -/
def Table.insert (t : Table F) (k : Nat) (v : List (Int × F)) : Table F :=
  match t with
  | [] => [(k, v)]
  | (k', v') :: t => if k < k' then (k, v) :: (k', v') :: t else if k = k' then (k', v') :: t
      else (k', v') :: Table.insert t k v
termination_by structural t

/-- Data members used by the code (SgNodeInterp2D.h:19-41); the source coordinates are those of the finder. -/
structure NodeInterp (F : Type) where
  finder : Finder F 2
  srcCellDims : Fin 2 → Nat
  dstNumPoints : Nat
  dstGrdCoords : List F
  weights : Table F
  /-- `srcCellDims` has been set; a C++ object has no such member, its sizes are just not initialised -/
  srcSet : Bool
  /-- `dstNumPoints` has been set -/
  dstSet : Bool

/-- Constructor (SgNodeInterp2D.h:45-47); the sizes are not initialised. -/
def new (nitermax : Int) (tolpos : F) : NodeInterp F :=
  { finder := Finder.new nitermax tolpos, srcCellDims := fun _ => 0, dstNumPoints := 0, dstGrdCoords := [], weights := []
    srcSet := false, dstSet := false }

/-- `setDstGrid` (SgNodeInterp2D.h:61-87): entry `2 i + j` of `dstGrdCoords` is `coords[j][i]`. -/
def NodeInterp.setDstGrid (o : NodeInterp F) (dims : Fin 2 → Nat) (coords : Fin 2 → Nat → F) : NodeInterp F :=
  { o with
    dstSet := true
    dstNumPoints := dims 0 * dims 1
    dstGrdCoords := (List.range (2 * (dims 0 * dims 1))).map fun k => coords ⟨k % 2, Nat.mod_lt _ (by decide)⟩ (k / 2) }

/-- `setSrcGrid` (SgNodeInterp2D.h:94-124). -/
def NodeInterp.setSrcGrid (o : NodeInterp F) (dims : Fin 2 → Nat) (per : Fin 2 → Int) (coords : Fin 2 → Nat → F) :
    NodeInterp F :=
  { o with
    srcSet := true
    finder := o.finder.setGrid dims per coords
    srcCellDims := fun j => dims j - 1 }

/-- Inner loop of `apply` (SgNodeInterp2D.h:138-143), for destination entry `k`. -/
def applyEntry (srcData : List F) (k : Nat) (iv : List (Int × F)) (dst : List F) : Cxx (List F) := do
  let dst ← vset dst k 0
  iv.foldlM (fun dst e => do
    let v ← vgetI srcData e.1
    let old ← vget dst k
    vset dst k (old + e.2 * v)) dst

/-- `apply` (SgNodeInterp2D.h:131-145): the destination data afterwards. -/
def NodeInterp.apply (o : NodeInterp F) (srcData dstData : List F) : Cxx (List F) :=
  o.weights.foldlM (fun dst e => applyEntry srcData e.1 e.2 dst) dstData

/-- `findTarget` (SgNodeInterp2D.h:225-241): the code and the finder. -/
def findTarget (g : Gels F) (f : Finder F 2) (target dIndices : Fin 2 → F) : Cxx (Int × Finder F 2) := do
  let r ← searchLoop g f.fuelOf (f.reset dIndices target)
  return (if r.1 > 0 then 0 else r.1, r.2)

/-- First start position (SgNodeInterp2D.h:155-157): `srcCellDims[0]/2.14423`, `srcCellDims[1]/1.93265`.  The decimal
constants are written as the quotients of integers they are the nearest doubles of. -/
def startIndices (cellDims : Fin 2 → Nat) : Fin 2 → F := fun i =>
  if i = 0 then (cellDims 0 : F) / ((214423 : Nat) / (100000 : Nat)) else (cellDims 1 : F) / ((193265 : Nat) / (100000 : Nat))

/-- Start position for a side (SgNodeInterp2D.h:195-197). -/
def sideIndices (cellDims : Fin 2 → Nat) (side : List Int) : Cxx (Fin 2 → F) :=
  forAxes fun i => do
    let sd ← vget side i
    let k ← iadd sd 1
    let p ← imul k (cellDims i : Int)
    return (p : F) / (2 : Nat)

/-- The retry loop (SgNodeInterp2D.h:189-200): last code, finder, start position.  `fuel` bounds the number of rounds;
the iterator has 9 elements. -/
def retry (g : Gels F) (cellDims : Fin 2 → Nat) (target : Fin 2 → F) :
    Nat → SideIterator.SideIt → Finder F 2 → (Fin 2 → F) → Cxx (Int × Finder F 2 × (Fin 2 → F))
  | 0, _, f, d => .ok (1, f, d)
  | fuel + 1, sit, f, _ => do
    let side ← sit.get
    let d ← sideIndices cellDims side
    let (ier, f) ← findTarget g f target d
    let (sit, stop) := sit.next
    if stop ≠ 1 ∧ ier ≠ 0 then retry g cellDims target fuel sit f d else return (ier, f, d)

/-- Target point of a destination node (SgNodeInterp2D.h:162). -/
def NodeInterp.target (o : NodeInterp F) (k : Nat) : Cxx (Fin 2 → F) :=
  forAxes fun j => vget o.dstGrdCoords (k * 2 + j)

/-- State of the loop of `computeWeights`. -/
structure LoopState (F : Type) where
  finder : Finder F 2
  dIndices : Fin 2 → F
  weights : Table F

/-- Body of the loop of `computeWeights` (SgNodeInterp2D.h:159-210). -/
def NodeInterp.node (g : Gels F) (o : NodeInterp F) (k : Nat) (s : LoopState F) : Cxx (LoopState F) := do
  let target ← o.target k
  let (ier, f) ← findTarget g s.finder target s.dIndices
  if ier = 0 then
    let iw ← getSrcIndicesAndWeights f.dims f.dIndices
    return { s with finder := f, weights := s.weights.insert k iw }
  else if ier = -3 then return { s with finder := f }
  else
    let sit ← SideIterator.new 2
    let (ier, f, d) ← retry g o.srcCellDims target 9 sit.reset f s.dIndices
    if ier ≠ 0 then
      let _ ← f.getPosition
      let _ ← f.getError
      return { s with finder := f, dIndices := d }
    else return { s with finder := f, dIndices := d }

/-- The state before destination node `k` is treated. -/
def NodeInterp.before (g : Gels F) (o : NodeInterp F) (k : Nat) : Cxx (LoopState F) :=
  forN k { finder := o.finder, dIndices := startIndices o.srcCellDims, weights := [] } fun i s => o.node g i s

/-- `computeWeights` (SgNodeInterp2D.h:150-213).  Sizes that were never set are read. -/
def NodeInterp.computeWeights (g : Gels F) (o : NodeInterp F) : Cxx (NodeInterp F) :=
  if o.srcSet && o.dstSet then do
    let s ← o.before g o.dstNumPoints
    return { o with finder := s.finder, weights := s.weights }
  else .error .uninit

end Sg.NodeInterp
