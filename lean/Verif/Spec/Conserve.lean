import Verif.Model.ConserveInterp
/-
The weights of conservative interpolation with every intersection computed from scratch: a new intersector for each test
and nothing remembered.
-/
namespace Sg.Spec
open Sg.LinearSolve Sg.Triangulate Sg.QuadIntersect Sg.Conserve

variable {F : Type} [Zero F] [One F] [Add F] [Sub F] [Mul F] [Div F] [Neg F] [LT F] [DecidableLT F] [LE F] [DecidableLE F]
  [NatCast F]

/-- The points of a pair of cells. -/
def scratchPoints (g : Gels F) (dstQuad srcQuad : Quad F) : Cxx (List (Pt F)) :=
  forN 4 [] fun i l => do
    let (_, b) ← isPointInCell g (LinearSolve.new 2 2) (dstQuad (node i)) srcQuad
    forN 4 (if b then l ++ [dstQuad (node i)] else l) fun j l => do
      let (_, b) ← isPointInCell g (LinearSolve.new 2 2) (srcQuad (node j)) dstQuad
      let (_, r) ← (Isect.new : Isect F).collectEdge g (dstQuad (node i)) (dstQuad (node (i + 1))) (srcQuad (node j))
        (srcQuad (node (j + 1)))
      return (if b then l ++ [srcQuad (node j)] else l) ++ r.toList

/-- The weights of a destination cell: source cells in increasing order. -/
def scratchCell (g : Gels F) (sort : List (Pt F) → List (Pt F)) (mode : Mode) (src : Grid F) (dstQuad : Quad F) :
    Cxx (List (Nat × F)) := do
  let dstArea ← hullArea mode (sort [dstQuad 0, dstQuad 1, dstQuad 2, dstQuad 3])
  forN src.numCells [] fun j l => do
    let (_, srcQuad) ← src.quadCoord j
    if boxesOverlap dstQuad srcQuad then
      let pts ← scratchPoints g dstQuad srcQuad
      if 3 ≤ pts.length then
        let area ← hullArea mode (sort pts)
        return l ++ [(j, area / dstArea)]
      else return l
    else return l

/-- The weights of the destination cells that have any, in increasing order. -/
def scratchTable (g : Gels F) (sort : List (Pt F) → List (Pt F)) (mode : Mode) (src dst : Grid F) :
    Cxx (List (Nat × List (Nat × F))) :=
  forN dst.numCells [] fun i t => do
    let (_, dstQuad) ← dst.quadCoord i
    let l ← scratchCell g sort mode src dstQuad
    return if l = [] then t else t ++ [(i, l)]

/-- The objects that one pass of `get` and `next`, until `next` tells the end, goes through, and what `get` returns. -/
inductive Drains (em : EndMode) : Interp F → List (Nat × Nat × F) → Interp F → Prop
  | last {o o' : Interp F} {x : Nat × Nat × F} : o.get = .ok x → o.next em = .ok (o', 1) → Drains em o [x] o'
  | more {o o1 o' : Interp F} {x : Nat × Nat × F} {l : List (Nat × Nat × F)} : o.get = .ok x → o.next em = .ok (o1, 0) →
      Drains em o1 l o' → Drains em o (x :: l) o'

end Sg.Spec
