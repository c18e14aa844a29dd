import Verif.Model.OctreeFlat
import Verif.Model.FindPointRaw
import Verif.Model.SideIterator
/-
Model of `SgOctreePoints_type` on its vectors and maps (/repo/cpp/SgOctreePoints.h, C interface /repo/cpp/SgOctreePoints.cpp):
`size_t` arithmetic modulo 2^64, vectors of any length, memory of the caller behind pointers, and the recursion that makes the tree.
`Model/Octree` and `Model/OctreeFlat` have the same class for a fixed number of axes below 64.
Simplifications: memory is unlimited, apart from the largest size of a vector; a map is the list of its entries in the order of
their insertion.
-/
namespace Sg.Octree
open Sg.FindPoint (Stop Call' lift' toSize smul resize)
open Sg.SideIterator (toInt wrap)

variable {F : Type} [Zero F] [One F] [Add F] [Sub F] [Mul F] [Div F] [Neg F] [LT F] [DecidableLT F]

/-- Ways a call can end without returning, `fuel` standing for more rounds of the recursion than there are in the fuel. -/
inductive Halt
  | stop (s : Stop)
  | fuel
  deriving DecidableEq, Repr

/-- A call with a recursion. -/
abbrev Run (α : Type) := Except Halt α

/-- A call without recursion as part of one with. -/
def ofCall {α : Type} (c : Call' α) : Run α :=
  match c with
  | .ok a => .ok a
  | .error s => .error (.stop s)

/-- Members (SgOctreePoints.h:29-47). -/
structure RTree (F : Type) where
  octree : List (List Nat × List F × List F)
  node2Key : List (Nat × List Nat)
  prodDims : List Nat
  xmins : List F
  xmaxs : List F
  ndims : Nat
  nlevs : Nat

/-- `insert` on a `std::map`: an entry that is there stays. -/
def mapInsert {α β : Type} [DecidableEq α] (m : List (α × β)) (k : α) (v : β) : List (α × β) :=
  if m.any (fun e => e.1 = k) then m else m ++ [(k, v)]

/-- `getIndices` (SgOctreePoints.h:205-211). -/
def RTree.getIndices (t : RTree F) (indx : Nat) : Cxx (List Nat) :=
  forN t.ndims (List.replicate t.ndims 0) fun j inds => do
    let p ← vget t.prodDims j
    if p = 0 then throw .divByZero
    vset inds j (indx / p % 2)

/-- One axis of a digit in `computeLoHi` (SgOctreePoints.h:184-187). -/
def boxRound [NatCast F] (inds : List Nat) (dx : F) (j : Nat) (s : List F × List F) : Cxx (List F × List F) := do
  let ind ← vget inds j
  let lo ← vget s.1 j
  let xLo ← vset s.1 j (lo + (ind : F) * dx)
  let lo ← vget xLo j
  let xHi ← vset s.2 j (lo + dx)
  return (xLo, xHi)

/-- One axis of the scaling in `computeLoHi` (SgOctreePoints.h:191-196). -/
def scaleRound (t : RTree F) (j : Nat) (s : List F × List F) : Cxx (List F × List F) := do
  let a ← vget t.xmins j
  let b ← vget t.xmaxs j
  let lo ← vget s.1 j
  let xLo ← vset s.1 j (lo * (b - a))
  let hi ← vget s.2 j
  let xHi ← vset s.2 j (hi * (b - a))
  let lo ← vget xLo j
  let xLo ← vset xLo j (lo + a)
  let hi ← vget xHi j
  let xHi ← vset xHi j (hi + a)
  return (xLo, xHi)

/-- `computeLoHi` (SgOctreePoints.h:178-198).  `xLo` and `xHi` are what the vectors of the caller hold: `resize` keeps entries. -/
def RTree.computeLoHi [NatCast F] (t : RTree F) (key : List Nat) (xLo xHi : List F) : Cxx (List F × List F) := do
  let xLo := xLo.take t.ndims ++ List.replicate (t.ndims - xLo.length) 0
  let xHi := xHi.take t.ndims ++ List.replicate (t.ndims - xHi.length) 1
  let (b, _) ← forN key.length ((xLo, xHi), (1 / (1 + 1) : F)) fun i s => do
    let iQuad ← vget key i
    let inds ← t.getIndices iQuad
    let b ← forN t.ndims s.1 (boxRound inds s.2)
    return (b, s.2 / (1 + 1))
  forN t.ndims b (scaleRound t)

/-- `octree.find(key)`. -/
def RTree.find (t : RTree F) (key : List Nat) : Option (List F × List F) := (t.octree.find? fun e => e.1 = key).map (·.2)

/-- `getLo` (SgOctreePoints.h:96-103). -/
def RTree.getLo (t : RTree F) (key : List Nat) : List F :=
  match t.find key with
  | some b => b.1
  | none => t.xmins

/-- `getHi` (SgOctreePoints.h:110-117). -/
def RTree.getHi (t : RTree F) (key : List Nat) : List F :=
  match t.find key with
  | some b => b.2
  | none => t.xmaxs

/-- `getKey` (SgOctreePoints.h:125-146) for the point at entry `off` of the memory `mem`. -/
def RTree.getKey [HasFloor F] [NatCast F] (t : RTree F) (mem : List F) (off lev : Nat) : Cxx (List Nat) := do
  if mem.length < off + t.ndims then throw .outOfBounds
  let x := (mem.drop off).take t.ndims
  let x ← forN t.ndims x fun j x => do
    let a ← vget t.xmins j
    let b ← vget t.xmaxs j
    let len := b - a
    let p ← vget mem (off + j)
    vset x j (cmin 1 (cmax 0 ((p - a) / len)))
  let (_, key) ← forN lev (List.replicate t.ndims (0 : F), List.replicate lev 0) fun el s => do
    let fact : F := two_pow (el + 1)
    forN t.ndims s fun j s => do
      let xj ← vget x j
      let bj ← vget s.1 j
      let indx := axisIndex fact xj bj
      let xbase ← vset s.1 j (bj + (indx : F) / fact)
      let k ← vget s.2 el
      let p ← vget t.prodDims j
      let key ← vset s.2 el (wrap (k + smul p indx))
      return (xbase, key)
  return key

/-- Conversion of a `size_t` to `double`: to nearest, ties to even. -/
def toDouble (n : Nat) : Nat :=
  if n ≤ 9007199254740992 then n
  else
    let e := 2 ^ (Nat.log2 n - 52)
    let q := n / e
    let r := n % e
    if 2 * r < e ∨ (2 * r = e ∧ q % 2 = 0) then q * e else (q + 1) * e

/-- One quadrant of `refineOctree` (SgOctreePoints.h:154-163). -/
def RTree.visit [NatCast F] (t : RTree F) (key2 : List Nat) : Cxx (RTree F) := do
  let b ← t.computeLoHi key2 [] []
  return { t with octree := mapInsert t.octree key2 b }

/-- `refineOctree` (SgOctreePoints.h:152-170) from quadrant `iQ` on.  The bound of the loop is the `double` `pow(2, ndims)`. -/
def RTree.refine [NatCast F] : Nat → RTree F → List Nat → Nat → Run (RTree F)
  | 0, _, _, _ => .error .fuel
  | k + 1, t, key, iQ =>
    if toDouble iQ < 2 ^ t.ndims then do
      let key2 := key ++ [iQ]
      let t ← ofCall (lift' (t.visit key2))
      let t ← if key2.length < t.nlevs then RTree.refine k t key2 0 else .ok t
      RTree.refine k t key (wrap (iQ + 1))
    else .ok t

/-- Corners of the domain (SgOctreePoints.h:57-65). -/
def cornersRaw (ndims : Nat) (points : List F) (lo hi : List F) : Cxx (List F × List F) :=
  forN points.length (lo, hi) fun i s => do
    if ndims = 0 then throw .divByZero
    let dim := i % ndims
    let p ← vget points i
    let a ← vget s.1 dim
    let lo ← vset s.1 dim (if p < a then p else a)
    let b ← vget s.2 dim
    let hi ← vset s.2 dim (if b < p then p else b)
    return (lo, hi)

/-- Strides (SgOctreePoints.h:68-71): the index of the loop is an `int`. -/
def stridesRaw (ndims : Nat) (prodDims : List Nat) : Cxx (List Nat) :=
  let start := toInt (wrap (ndims + 18446744073709551614))
  forN (start + 1).toNat prodDims fun k pd => do
    let i := (start - k).toNat
    let x ← vget pd (i + 1)
    vset pd i (smul x 2)

/-- Constructor (SgOctreePoints.h:54-83). -/
def RTree.new [HasFloor F] [NatCast F] (fuel : Nat) (big : F) (numLevels ndims : Nat) (points : List F) : Run (RTree F) := do
  let lo ← ofCall (resize [] ndims big)
  let hi ← ofCall (resize [] ndims (-big))
  let b ← ofCall (lift' (cornersRaw ndims points lo hi))
  let pd ← ofCall (resize [] ndims 1)
  let pd ← ofCall (lift' (stridesRaw ndims pd))
  let t : RTree F := { octree := [], node2Key := [], prodDims := pd, xmins := b.1, xmaxs := b.2, ndims := ndims, nlevs := numLevels }
  let t ← t.refine fuel [] 0
  if ndims = 0 then throw (.stop (.undefined .divByZero))
  let numPoints := points.length / ndims
  ofCall (lift' (forN numPoints t fun i t => do
    let key ← t.getKey points (i * ndims) t.nlevs
    return { t with node2Key := mapInsert t.node2Key i key }))

/-- `SgOctreePoints_new` (SgOctreePoints.cpp:9-15) for the memory `mem` behind the pointer. -/
def newCRaw [HasFloor F] [NatCast F] (fuel : Nat) (big : F) (numLevels ndims npoints : Int) (mem : List F) : Run (RTree F) := do
  let m ← ofCall (lift' (imul npoints ndims))
  if m < 0 ∨ mem.length < m.toNat then throw (.stop (.undefined .badPointer))
  RTree.new fuel big (toSize numLevels) (toSize ndims) (mem.take m.toNat)

end Sg.Octree
