import Verif.Model.QuadIntersect
/-
Model of `SgQuadLineIntersect_type` (/repo/cpp/SgQuadLineIntersect.h, C interface /repo/cpp/SgQuadLineIntersect.cpp).
Coordinates are represented as in `Verif/Model/QuadIntersect.lean`.  The members `mat` and `rhs` are scratch space,
written before each use: see `Model/QuadScratch`.  The linear algebra library is the parameter `g` and `std::sort` the
parameter `srt`.
-/
namespace Sg.QuadLine
open Sg.LinearSolve Sg.Triangulate Sg.QuadIntersect

variable {F : Type} [Zero F] [One F] [Add F] [Sub F] [Mul F] [Div F] [Neg F] [LT F] [DecidableLT F] [LE F] [DecidableLE F]
  [NatCast F]

/-- `tol` (SgQuadLineIntersect.h:56): 100 times the spacing 2⁻⁵² of `double` at one. -/
def ltol : F := ((100 : Nat) : F) / ((4503599627370496 : Nat) : F)

/-- Smallest and largest coordinates (SgQuadLineIntersect.h:42-47). -/
structure Box (F : Type) where
  min : Pt F
  max : Pt F

/-- Members (SgQuadLineIntersect.h:20-47).  The pointers are represented by what they point to (simplification: the
caller leaves the arrays unchanged between the setters and their use; `Model/QuadMemory` does without), with the box computed by the setter; `none` is
`NULL`, with a box that has no value yet. -/
structure Line (F : Type) where
  slvr : Solver F
  quad : Option (Quad F × Box F)
  line : Option ((Pt F × Pt F) × Box F)
  lambdas : List F
  points : List (Pt F)

/-- Constructor (SgQuadLineIntersect.h:52-62). -/
def Line.new : Line F := { slvr := LinearSolve.new 2 2, quad := none, line := none, lambdas := [], points := [] }

/-- `reset` (SgQuadLineIntersect.h:64-66). -/
def Line.reset (s : Line F) : Line F := { s with lambdas := [] }

/-- The box of a quadrilateral (SgQuadLineIntersect.h:194-202).  The start value plus or minus infinity is replaced by
the first coordinate, as in `Verif/Model/QuadIntersect.lean`. -/
def quadBox (q : Quad F) : Box F :=
  { min := (quadMin fun i => (q i).1, quadMin fun i => (q i).2)
    max := (quadMax fun i => (q i).1, quadMax fun i => (q i).2) }

/-- The box of a segment (SgQuadLineIntersect.h:215-227). -/
def lineBox (a b : Pt F) : Box F :=
  { min := (stdMin b.1 a.1, stdMin b.2 a.2)
    max := (stdMax b.1 a.1, stdMax b.2 a.2) }

/-- `setQuadPoints` (SgQuadLineIntersect.h:188-203). -/
def Line.setQuadPoints (s : Line F) (q : Quad F) : Line F := { s with quad := some (q, quadBox q) }

/-- `setLinePoints` (SgQuadLineIntersect.h:209-228). -/
def Line.setLinePoints (s : Line F) (a b : Pt F) : Line F := { s with line := some ((a, b), lineBox a b) }

/-- `checkIfOverlap` (SgQuadLineIntersect.h:72-81). -/
def Line.checkIfOverlap (s : Line F) : Cxx Bool :=
  match s.quad, s.line with
  | some (_, bq), some (_, bl) =>
    .ok (decide (stdMax bq.min.1 bl.min.1 ≤ stdMin bq.max.1 bl.max.1) &&
      decide (stdMax bq.min.2 bl.min.2 ≤ stdMin bq.max.2 bl.max.2))
  | _, _ => .error .uninit

/-- `checkIfPointIsInsideTriangle` (SgQuadLineIntersect.h:91-116). -/
def checkIfPointIsInsideTriangle (g : Gels F) (s : Solver F) (pt n0 n1 n2 : Pt F) : Cxx (Solver F × Bool) := do
  let (s, ier) ← solve2 g s (triMat n0 n1 n2) (triRhs pt n0)
  if 0 < ier then return (s, false)
  else
    let xi0 ← vget s.getSolution 0
    let xi1 ← vget s.getSolution 1
    return (s, decide (-ltol < xi0) && decide (xi0 ≤ 1 + ltol) && decide (-ltol < xi1) && decide (xi0 + xi1 ≤ 1 + ltol))

/-- `isPointInQuad` (SgQuadLineIntersect.h:131-143). -/
def isPointInQuad (g : Gels F) (s : Solver F) (pt : Pt F) (q : Quad F) : Cxx (Solver F × Bool) := do
  let (s, b) ← checkIfPointIsInsideTriangle g s pt (q 0) (q 1) (q 3)
  if b then return (s, true)
  else checkIfPointIsInsideTriangle g s pt (q 2) (q 3) (q 1)

/-- `collectEdgeToLineIntersectionPoints` (SgQuadLineIntersect.h:153-182). -/
def Line.collectEdge (g : Gels F) (s : Line F) (e0 e1 a b : Pt F) : Cxx (Line F × Int) := do
  let (sl, ier) ← solve2 g s.slvr (edgeMat e0 e1 a b) (triRhs a e0)
  let s := { s with slvr := sl }
  if 0 < ier then return (s, 0)
  else
    let xi0 ← vget sl.getSolution 0
    let xi1 ← vget sl.getSolution 1
    if -ltol ≤ xi0 ∧ xi0 < 1 + ltol ∧ -ltol ≤ xi1 ∧ xi1 < 1 + ltol then
      return ({ s with lambdas := s.lambdas ++ [xi1] }, 1)
    else return (s, 0)

/-- The test of one end of the segment (SgQuadLineIntersect.h:240-242 and 259-261). -/
def Line.collectEnd (g : Gels F) (s : Line F) (pt : Pt F) (q : Quad F) (lambda : F) : Cxx (Line F) := do
  let (sl, b) ← isPointInQuad g s.slvr pt q
  let s := { s with slvr := sl }
  return if b then { s with lambdas := s.lambdas ++ [lambda] } else s

/-- The point at a parameter (SgQuadLineIntersect.h:272-273). -/
def linePoint (a b : Pt F) (lambda : F) : Pt F := (a.1 + lambda * (b.1 - a.1), a.2 + lambda * (b.2 - a.2))

/-- `collectIntersectPoints` (SgQuadLineIntersect.h:235-289): the points returned through the pointers are the list
`points` of the new state, `numPoints` its length. -/
def Line.collectIntersectPoints (g : Gels F) (srt : List F → List F) (s : Line F) : Cxx (Line F × List (Pt F)) := do
  match s.quad, s.line with
  | some (q, _), some ((a, b), _) =>
    let s ← s.collectEnd g a q 0
    let s ← forN 4 s fun i s => do
      let (s, _) ← s.collectEdge g (q (node i)) (q (node (i + 1))) a b
      return s
    let s ← s.collectEnd g b q 1
    let lambdas := srt s.lambdas
    let s := { s with lambdas := lambdas, points := lambdas.map (linePoint a b) }
    return (s, s.points)
  | _, _ => .error .nullDeref

end Sg.QuadLine
