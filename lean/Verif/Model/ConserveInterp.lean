import Verif.Model.QuadIntersect
/-
Model of `SgConserveInterp2D_type` (/repo/cpp/SgConserveInterp2D.h; the C interface /repo/cpp/SgConserveInterp2D.cpp only
forwards).  The scalar type has the operations only, no laws.  Grids have at least one node per axis.  In two dimensions
all the products of dimensions are products with 1 or of type `size_t`, so no `int` operation overflows.  Parameters:
`g` the linear algebra library, `sort` the order in which `std::sort` leaves the points in a triangulation, `mode` how
reads past the end of a shrunken vector are treated.
-/
namespace Sg.Conserve
open Sg.LinearSolve Sg.Triangulate Sg.QuadIntersect

variable {F : Type} [Zero F] [One F] [Add F] [Sub F] [Mul F] [Div F] [Neg F] [LT F] [DecidableLT F] [LE F] [DecidableLE F]
  [NatCast F]

/-! ### Grids -/

/-- The members of one grid (SgConserveInterp2D.h:21-39): numbers of nodes and the flat array (node, component). -/
structure Grid (F : Type) where
  nodeDims : Nat × Nat
  coords : List F
  deriving DecidableEq

/-- `CellDims`, `CellDimProd`, `NodeDimProd`, `NumCells` (SgConserveInterp2D.h:67-81 and 102-118). -/
def Grid.cellDims (gr : Grid F) : Nat × Nat := (gr.nodeDims.1 - 1, gr.nodeDims.2 - 1)
def Grid.cellDimProd (gr : Grid F) : Nat × Nat := (1 * gr.cellDims.2, 1)
def Grid.nodeDimProd (gr : Grid F) : Nat × Nat := (1 * gr.nodeDims.2, 1)
def Grid.numCells (gr : Grid F) : Nat := 1 * gr.cellDims.1 * gr.cellDims.2

/-- Copy of the coordinates (SgConserveInterp2D.h:83-90 and 120-127), the loop over the two components being unrolled.
The vector is resized first; as every element is written, zeros stand for what it contained. -/
def makeGrid (dims : Nat × Nat) (x y : List F) : Cxx (Grid F) := do
  let n := 1 * dims.1 * dims.2
  let v ← forN n (List.replicate (2 * n) (0 : F)) fun i v => do
    let c ← vget x i
    vset v (i * 2 + 0) c
  let v ← forN n v fun i v => do
    let c ← vget y i
    vset v (i * 2 + 1) c
  return { nodeDims := dims, coords := v }

/-- `/` and `%` of `size_t`. -/
def udiv (a b : Nat) : Cxx Nat := if b = 0 then .error .divByZero else .ok (a / b)
def umod (a b : Nat) : Cxx Nat := if b = 0 then .error .divByZero else .ok (a % b)

/-- `offset` (SgConserveInterp2D.h:173-176). -/
def offset (i : Fin 4) : Nat × Nat :=
  match i with | 0 => (0, 0) | 1 => (1, 0) | 2 => (1, 1) | 3 => (0, 1)

/-- Coordinates of a node (SgConserveInterp2D.h:402-404). -/
def Grid.nodeCoord (gr : Grid F) (n : Nat) : Cxx (Pt F) := do
  let x ← vget gr.coords (n * 2 + 0)
  let y ← vget gr.coords (n * 2 + 1)
  return (x, y)

/-- `getDstQuadCoord` and `getSrcQuadCoord` (SgConserveInterp2D.h:385-406 and 415-436), the loop over the four nodes being
unrolled. -/
def Grid.quadCoord (gr : Grid F) (indx : Nat) : Cxx ((Fin 4 → Nat) × Quad F) := do
  let q0 ← udiv indx gr.cellDimProd.1
  let c0 ← umod q0 gr.cellDims.1
  let q1 ← udiv indx gr.cellDimProd.2
  let c1 ← umod q1 gr.cellDims.2
  let nodeIndx : Fin 4 → Nat := fun i =>
    0 + gr.nodeDimProd.1 * (c0 + (offset i).1) + gr.nodeDimProd.2 * (c1 + (offset i).2)
  let p0 ← gr.nodeCoord (nodeIndx 0)
  let p1 ← gr.nodeCoord (nodeIndx 1)
  let p2 ← gr.nodeCoord (nodeIndx 2)
  let p3 ← gr.nodeCoord (nodeIndx 3)
  return (nodeIndx, fun i => match i with | 0 => p0 | 1 => p1 | 2 => p2 | 3 => p3)

/-! ### Caches -/

/-- Two edges, each as its sorted pair of node indices. -/
abbrev EdgeKey := (Nat × Nat) × (Nat × Nat)

/-- An edge with sorted node indices (SgConserveInterp2D.h:211-214 and 247-250). -/
def sortPair (a b : Nat) : Nat × Nat := if b < a then (b, a) else (a, b)

/-- The caches (SgConserveInterp2D.h:156-166).  Maps are association lists, a set is a list. -/
structure Cache (F : Type) where
  edgeX : List (EdgeKey × Pt F)
  edgeNoX : List EdgeKey
  dstIn : List ((Nat × Nat) × Pt F)
  srcIn : List ((Nat × Nat) × Pt F)

def Cache.empty : Cache F := { edgeX := [], edgeNoX := [], dstIn := [], srcIn := [] }

/-- `std::map::find` and `std::map::insert` of a key that is not there. -/
def mfind {κ ν : Type} [DecidableEq κ] (m : List (κ × ν)) (k : κ) : Option ν := m.lookup k
def madd {κ ν : Type} (m : List (κ × ν)) (k : κ) (v : ν) : List (κ × ν) := (k, v) :: m

/-- Intersector and caches. -/
abbrev Work (F : Type) := Isect F × Cache F

/-- A node of the destination cell (SgConserveInterp2D.h:219-235). -/
def dstNodeStep (g : Gels F) (srcIndx dstNodeA : Nat) (pA : Pt F) (srcQuad : Quad F) (w : Work F) : Cxx (Work F) := do
  match mfind w.2.dstIn (dstNodeA, srcIndx) with
  | some _ => return (w.1.addPoint pA, w.2)
  | none =>
    let (sl, ret) ← isPointInCell g w.1.slvr pA srcQuad
    let is := { w.1 with slvr := sl }
    if ret then return (is.addPoint pA, { w.2 with dstIn := madd w.2.dstIn (dstNodeA, srcIndx) pA })
    else return (is, w.2)

/-- A node of the source cell (SgConserveInterp2D.h:255-271). -/
def srcNodeStep (g : Gels F) (dstIndx srcNodeA : Nat) (qA : Pt F) (dstQuad : Quad F) (w : Work F) : Cxx (Work F) := do
  match mfind w.2.srcIn (dstIndx, srcNodeA) with
  | some _ => return (w.1.addPoint qA, w.2)
  | none =>
    let (sl, ret) ← isPointInCell g w.1.slvr qA dstQuad
    let is := { w.1 with slvr := sl }
    if ret then return (is.addPoint qA, { w.2 with srcIn := madd w.2.srcIn (dstIndx, srcNodeA) qA })
    else return (is, w.2)

/-- Two edges (SgConserveInterp2D.h:273-301). -/
def edgeStep (g : Gels F) (key : EdgeKey) (a0 a1 b0 b1 : Pt F) (w : Work F) : Cxx (Work F) := do
  if key ∈ w.2.edgeNoX then return w
  else
    match mfind w.2.edgeX key with
    | some p => return (w.1.addPoint p, w.2)
    | none =>
      let (is, r) ← w.1.collectEdge g a0 a1 b0 b1
      match r with
      | none => return (is, { w.2 with edgeNoX := key :: w.2.edgeNoX })
      | some p => return (is, { w.2 with edgeX := madd w.2.edgeX key p })

/-- The loops over the edges of the two cells (SgConserveInterp2D.h:204-304). -/
def pairStep (g : Gels F) (dstIndx srcIndx : Nat) (dn : Fin 4 → Nat) (dstQuad : Quad F) (sn : Fin 4 → Nat)
    (srcQuad : Quad F) (w : Work F) : Cxx (Work F) :=
  forN 4 w fun i w => do
    let w ← dstNodeStep g srcIndx (dn (node i)) (dstQuad (node i)) srcQuad w
    forN 4 w fun j w => do
      let w ← srcNodeStep g dstIndx (sn (node j)) (srcQuad (node j)) dstQuad w
      edgeStep g (sortPair (dn (node i)) (dn (node (i + 1))), sortPair (sn (node j)) (sn (node (j + 1))))
        (dstQuad (node i)) (dstQuad (node (i + 1))) (srcQuad (node j)) (srcQuad (node (j + 1))) w

/-! ### Weights -/

/-- `weights` (SgConserveInterp2D.h:41-43), by increasing key. -/
abbrev Table (F : Type) := List (Nat × List (Nat × F))

/-- `std::map::insert` (SgConserveInterp2D.h:328): an existing entry stays. -/
def Table.insert (t : Table F) (k : Nat) (v : List (Nat × F)) : Table F :=
  match t with
  | [] => [(k, v)]
  | e :: t => if k < e.1 then (k, v) :: e :: t else if e.1 < k then e :: Table.insert t k v else e :: t

/-- Members (SgConserveInterp2D.h:18-48).  Grids are `none` before they are set.  `it` is the key of the entry at
`weightIt`, `none` standing for `end()`; `it2` is the position of `weightIt2` in that entry, `none` if it is no iterator
into the entry. -/
structure Interp (F : Type) where
  src : Option (Grid F)
  dst : Option (Grid F)
  weights : Table F
  it : Option Nat
  it2 : Option Nat
  deriving DecidableEq

/-- `setDstGrid` (SgConserveInterp2D.h:65-91). -/
def Interp.setDstGrid (o : Interp F) (dims : Nat × Nat) (x y : List F) : Cxx (Interp F) := do
  let gr ← makeGrid dims x y
  return { o with dst := some gr }

/-- `setSrcGrid` (SgConserveInterp2D.h:98-128); the periodicity is stored and never used. -/
def Interp.setSrcGrid (o : Interp F) (dims : Nat × Nat) (_periodicity : Nat × Nat) (x y : List F) : Cxx (Interp F) := do
  let gr ← makeGrid dims x y
  return { o with src := some gr }

/-- The body of the loop over the source cells (SgConserveInterp2D.h:191-324). -/
def srcStep (g : Gels F) (sort : List (Pt F) → List (Pt F)) (mode : Mode) (src : Grid F) (dstIndx : Nat)
    (dn : Fin 4 → Nat) (dstQuad : Quad F) (dstArea : F) (srcIndx : Nat) (s : Work F × List (Nat × F)) :
    Cxx (Work F × List (Nat × F)) := do
  let (sn, srcQuad) ← src.quadCoord srcIndx
  let is := s.1.1.reset.setQuadPoints dstQuad srcQuad
  let overlap ← is.checkIfBoxesOverlap
  if overlap then
    let w ← pairStep g dstIndx srcIndx dn dstQuad sn srcQuad (is, s.1.2)
    if 3 ≤ w.1.pts.length then
      let area ← hullArea mode (sort w.1.pts)
      return (w, s.2 ++ [(srcIndx, area / dstArea)])
    else return (w, s.2)
  else return ((is, s.1.2), s.2)

/-- The body of the loop over the destination cells (SgConserveInterp2D.h:180-330). -/
def dstStep (g : Gels F) (sort : List (Pt F) → List (Pt F)) (mode : Mode) (src dst : Grid F) (dstIndx : Nat)
    (s : Work F × Table F) : Cxx (Work F × Table F) := do
  let (dn, dstQuad) ← dst.quadCoord dstIndx
  let dstArea ← hullArea mode (sort [dstQuad 0, dstQuad 1, dstQuad 2, dstQuad 3])
  let (w, indWght) ← forN src.numCells (s.1, []) (srcStep g sort mode src dstIndx dn dstQuad dstArea)
  return (w, if 0 < indWght.length then Table.insert s.2 dstIndx indWght else s.2)

/-- `computeWeights` (SgConserveInterp2D.h:154-331).  Without a destination grid the number of its cells is not set, without a source grid
the number of source cells, which is read for the first destination cell, if there is one. -/
def Interp.computeWeights (g : Gels F) (sort : List (Pt F) → List (Pt F)) (mode : Mode) (o : Interp F) : Cxx (Interp F) := do
  match o.dst, o.src with
  | some dst, some src =>
    let (_, t) ← forN dst.numCells ((Isect.new, Cache.empty), o.weights) (dstStep g sort mode src dst)
    return { o with weights := t }
  | some dst, none => if dst.numCells = 0 then return o else .error .uninit
  | none, _ => .error .uninit

/-- `apply` (SgConserveInterp2D.h:135-148). -/
def Interp.apply (o : Interp F) (srcData dstData : List F) : Cxx (List F) :=
  o.weights.foldlM (fun d e => do
    let d ← vset d e.1 0
    e.2.foldlM (fun d p => do
      let v ← vget d e.1
      let s ← vget srcData p.1
      vset d e.1 (v + p.2 * s)) d) dstData

/-! ### Iteration -/

/-- How taking the begin of the vector at the end iterator of the map is treated.  `strict`: undefined behaviour.
`lenient`: garbage is stored, which is no iterator, and the program goes on. -/
inductive EndMode
  | strict | lenient
  deriving DecidableEq, Repr

/-- The entry with a key, and the first entry with a larger key. -/
def Table.at (t : Table F) (k : Nat) : Option (Nat × List (Nat × F)) := t.find? fun e => e.1 == k
def Table.after (t : Table F) (k : Nat) : Option Nat := (t.find? fun e => decide (k < e.1)).map Prod.fst

/-- `weightIt->second.begin()`. -/
def beginAt (em : EndMode) (it : Option Nat) : Cxx (Option Nat) :=
  match it, em with
  | some _, _ => .ok (some 0)
  | none, .strict => .error .badIterator
  | none, .lenient => .ok none

/-- `reset` (SgConserveInterp2D.h:336-339). -/
def Interp.reset (em : EndMode) (o : Interp F) : Cxx (Interp F) := do
  let it := o.weights.head?.map Prod.fst
  let b ← beginAt em it
  return { o with it := it, it2 := b }

/-- Constructor (SgConserveInterp2D.h:52-54). -/
def new (em : EndMode) : Cxx (Interp F) :=
  Interp.reset em { src := none, dst := none, weights := [], it := none, it2 := none }

/-- The entry at `weightIt` and the position of `weightIt2` in it; using anything else is undefined behaviour. -/
def Interp.current (o : Interp F) : Cxx (Nat × List (Nat × F) × Nat) :=
  match o.it, o.it2 with
  | some key, some k =>
    match o.weights.at key with
    | some e => .ok (key, e.2, k)
    | none => .error .badIterator
  | _, _ => .error .badIterator

/-- `next` (SgConserveInterp2D.h:345-362).  Incrementing what is no iterator or is at the end is undefined behaviour. -/
def Interp.next (em : EndMode) (o : Interp F) : Cxx (Interp F × Int) := do
  let (key, v, k) ← o.current
  if v.length ≤ k then .error .badIterator
  else if k + 1 = v.length then
    let it := o.weights.after key
    let b ← beginAt em it
    let o := { o with it := it, it2 := b }
    if it = none then
      let o ← o.reset em
      return (o, 1)
    else return (o, 0)
  else return ({ o with it2 := some (k + 1) }, 0)

/-- `get` (SgConserveInterp2D.h:370-374): destination index, source index and weight.  Simplification: the conversion of
the indices to `int` is not represented here (see `getInt` in `Model/ConserveRaw`). -/
def Interp.get (o : Interp F) : Cxx (Nat × Nat × F) := do
  let (key, v, k) ← o.current
  match v[k]? with
  | some p => return (key, p.1, p.2)
  | none => .error .badIterator

end Sg.Conserve
