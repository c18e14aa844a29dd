import Verif.Spec.QuadMemory
/-
Model of `SgQuadIntersect_type` and `SgQuadLineIntersect_type` (/repo/cpp/SgQuadIntersect.h, SgQuadLineIntersect.h) with their
members `mat` and `rhs`: arrays that the constructors leave as they are in memory, that every test of a point or of an edge fills
entry by entry and that the solver then reads.  The other members are those of `Model/QuadMemory`.  Arrays of the caller are read in
the order of the code.  Simplification: the solver, which copies the entries it reads one by one, is given all of them at once.
-/
namespace Sg.QuadScratch
open Sg.LinearSolve Sg.Triangulate Sg.QuadIntersect Sg.QuadLine Sg.QuadMemory Sg.FindPoint

variable {F : Type} [Zero F] [One F] [Add F] [Sub F] [Mul F] [Div F] [Neg F] [LT F] [DecidableLT F]
  [LE F] [DecidableLE F] [DecidableEq F] [NatCast F] [IntCast F] [FOps F]

/-- `double mat[2 * 2]` and `double rhs[2]` (SgQuadIntersect.h:34-35, SgQuadLineIntersect.h:38-39); an entry nothing was written to is `none`. -/
structure Scratch (F : Type) where
  mat : List (Option F)
  rhs : List (Option F)

/-- Read an entry. -/
def cell (l : List (Option F)) (k : Nat) : Cxx F := do
  match ← vget l k with
  | some x => return x
  | none => .error .uninit

/-- A pointer plus a number of points: `&p[i*NDIMS_2D_PHYS]`. -/
abbrev At := Option Ptr × Nat

/-- The loop that fills the system: `rhs[j] = a[j] - b[j]`, `mat[2*j + 0] = c[j] - d[j]`, `mat[2*j + 1] = e[j] - f[j]`
(SgQuadIntersect.h:95-99 and 186-190, SgQuadLineIntersect.h:97-101 and 158-162). -/
def fill (m : Memory F) (sc : Scratch F) (a b c d e f : At) : Cxx (Scratch F) :=
  forN 2 sc fun j sc => do
    let x ← load m a.1 (a.2 * 2 + j)
    let y ← load m b.1 (b.2 * 2 + j)
    let rhs ← vset sc.rhs j (some (x - y))
    let x ← load m c.1 (c.2 * 2 + j)
    let y ← load m d.1 (d.2 * 2 + j)
    let mat ← vset sc.mat (2 * j + 0) (some (x - y))
    let x ← load m e.1 (e.2 * 2 + j)
    let y ← load m f.1 (f.2 * 2 + j)
    let mat ← vset mat (2 * j + 1) (some (x - y))
    return { mat, rhs }

/-- `setMatrix`, `setRightHandSide` and `solve` (SgQuadIntersect.h:100-102 and 191-193, SgQuadLineIntersect.h:102-104 and 163-165). -/
def solveS (g : Gels F) (s : Solver F) (sc : Scratch F) : Cxx (Solver F × Int) := do
  let a0 ← cell sc.mat 0
  let a1 ← cell sc.mat 1
  let a2 ← cell sc.mat 2
  let a3 ← cell sc.mat 3
  let b0 ← cell sc.rhs 0
  let b1 ← cell sc.rhs 1
  solve2 g s (fun k => match k with | 0 => a0 | 1 => a1 | 2 => a2 | _ => a3) fun k => match k with | 0 => b0 | _ => b1

/-! ### Two quadrilaterals -/

/-- `checkIfPointIsInsideTriangle` (SgQuadIntersect.h:89-114). -/
def insideTriangle (g : Gels F) (m : Memory F) (s : Solver F) (sc : Scratch F) (pt n0 n1 n2 : At) : Cxx ((Solver F × Bool) × Scratch F) := do
  let sc ← fill m sc pt n0 n1 n0 n2 n0
  let (s, ier) ← solveS g s sc
  if 0 < ier then return ((s, false), sc)
  else
    let xi0 ← vget s.getSolution 0
    let xi1 ← vget s.getSolution 1
    return ((s, decide (-tol < xi0) && decide (xi0 ≤ 1 + tol) && decide (-tol < xi1) && decide (xi0 + xi1 ≤ 1 + tol)), sc)

/-- `isPointInCell` (SgQuadIntersect.h:139-151). -/
def isPointInCell (g : Gels F) (m : Memory F) (s : Solver F) (sc : Scratch F) (p : Option Ptr) (i : Nat) (q : Option Ptr) :
    Cxx ((Solver F × Bool) × Scratch F) := do
  let ((s, b), sc) ← insideTriangle g m s sc (p, i) (q, 0) (q, 1) (q, 3)
  if b then return ((s, true), sc)
  else insideTriangle g m s sc (p, i) (q, 2) (q, 3) (q, 1)

/-- `collectNodesInsideQuad` (SgQuadIntersect.h:158-167). -/
def collectNodesInsideQuad (g : Gels F) (grow : Nat → Nat) (m : Memory F) (s : QuadMemory.Isect F) (sc : Scratch F) (nodes quad : Option Ptr) :
    Cxx (QuadMemory.Isect F × Scratch F) :=
  forN 4 (s, sc) fun i r => do
    let ((sl, b), sc) ← isPointInCell g m r.1.slvr r.2 nodes i quad
    let s := { r.1 with slvr := sl }
    if b then do
      let s ← forN 2 s fun j s => do
        let x ← load m nodes (i * 2 + j)
        return { s with pts := s.pts.push grow x }
      return (s, sc)
    else return (s, sc)

/-- `collectEdgeToEdgeIntersectionPoints` (SgQuadIntersect.h:178-212) for edge `i` of the first and edge `j` of the second quadrilateral
(236-249).  The coordinates of the point (204-207) are read from the same places once more. -/
def collectEdge (g : Gels F) (grow : Nat → Nat) (m : Memory F) (s : QuadMemory.Isect F) (sc : Scratch F) (i j : Nat) :
    Cxx (QuadMemory.Isect F × Scratch F) := do
  let sc ← fill m sc (s.quad2, j) (s.quad1, i) (s.quad1, (i + 1) % 4) (s.quad1, i) (s.quad2, j) (s.quad2, (j + 1) % 4)
  let (sl, ier) ← solveS g s.slvr sc
  let s := { s with slvr := sl }
  if 0 < ier then return (s, sc)
  else
    let xi0 ← vget sl.getSolution 0
    let xi1 ← vget sl.getSolution 1
    if tol < xi0 ∧ xi0 ≤ 1 - tol ∧ tol < xi1 ∧ xi1 ≤ 1 - tol then
      let a0 ← loadPt m s.quad1 i
      let a1 ← loadPt m s.quad1 ((i + 1) % 4)
      let v := s.pts.push grow (a0.1 + xi0 * (a1.1 - a0.1))
      let v := v.push grow (a0.2 + xi0 * (a1.2 - a0.2))
      return ({ s with pts := v }, sc)
    else return (s, sc)

/-- `collectIntersectPoints` (SgQuadIntersect.h:225-259). -/
def collectIntersectPoints (g : Gels F) (grow : Nat → Nat) (m : Memory F) (s : QuadMemory.Isect F) (sc : Scratch F) :
    Cxx ((QuadMemory.Isect F × Found) × Scratch F) := do
  let (s, sc) ← collectNodesInsideQuad g grow m s sc s.quad1 s.quad2
  let (s, sc) ← collectNodesInsideQuad g grow m s sc s.quad2 s.quad1
  let (s, sc) ← forN 4 (s, sc) fun i r => forN 4 r fun j r => collectEdge g grow m r.1 r.2 i j
  return ((s, s.pts.found), sc)

/-- A history of calls. -/
def runPair (g : Gels F) (grow : Nat → Nat) : Memory F → QuadMemory.Isect F → Scratch F → List (PairCall F) → Cxx (List (Answer F))
  | _, _, _, [] => .ok []
  | _, s, sc, .memory m :: cs => do
    let l ← runPair g grow m s sc cs
    return .done :: l
  | m, s, sc, .set p1 p2 :: cs => do
    let l ← runPair g grow m (s.setQuadPoints p1 p2) sc cs
    return .done :: l
  | m, s, sc, .reset :: cs => do
    let l ← runPair g grow m s.reset sc cs
    return .done :: l
  | m, s, sc, .boxes :: cs => do
    let b ← s.checkIfBoxesOverlap m
    let l ← runPair g grow m s sc cs
    return .overlap b :: l
  | m, s, sc, .collect :: cs => do
    let ((s, r), sc) ← collectIntersectPoints g grow m s sc
    let l ← runPair g grow m s sc cs
    return .points r.numPoints (r.points.map fun _ => s.pts.data) :: l

/-! ### A quadrilateral and a segment -/

/-- `checkIfPointIsInsideTriangle` (SgQuadLineIntersect.h:91-116). -/
def insideTriangleL (g : Gels F) (m : Memory F) (s : Solver F) (sc : Scratch F) (pt n0 n1 n2 : At) : Cxx ((Solver F × Bool) × Scratch F) := do
  let sc ← fill m sc pt n0 n1 n0 n2 n0
  let (s, ier) ← solveS g s sc
  if 0 < ier then return ((s, false), sc)
  else
    let xi0 ← vget s.getSolution 0
    let xi1 ← vget s.getSolution 1
    return ((s, decide (-ltol < xi0) && decide (xi0 ≤ 1 + ltol) && decide (-ltol < xi1) && decide (xi0 + xi1 ≤ 1 + ltol)), sc)

/-- `isPointInQuad` (SgQuadLineIntersect.h:131-143). -/
def isPointInQuad (g : Gels F) (m : Memory F) (s : Solver F) (sc : Scratch F) (p : Option Ptr) (i : Nat) (q : Option Ptr) :
    Cxx ((Solver F × Bool) × Scratch F) := do
  let ((s, b), sc) ← insideTriangleL g m s sc (p, i) (q, 0) (q, 1) (q, 3)
  if b then return ((s, true), sc)
  else insideTriangleL g m s sc (p, i) (q, 2) (q, 3) (q, 1)

/-- The test of one end of the segment (SgQuadLineIntersect.h:240-242 and 259-261). -/
def collectEndL (g : Gels F) (m : Memory F) (s : QuadMemory.Line F) (sc : Scratch F) (i : Nat) (lambda : F) : Cxx (QuadMemory.Line F × Scratch F) := do
  let ((sl, b), sc) ← isPointInQuad g m s.slvr sc s.line i s.quad
  let s := { s with slvr := sl }
  return (if b then { s with lambdas := s.lambdas ++ [lambda] } else s, sc)

/-- `collectEdgeToLineIntersectionPoints` (SgQuadLineIntersect.h:153-182) for edge `i` (248-257). -/
def collectEdgeL (g : Gels F) (m : Memory F) (s : QuadMemory.Line F) (sc : Scratch F) (i : Nat) : Cxx (QuadMemory.Line F × Scratch F) := do
  let sc ← fill m sc (s.line, 0) (s.quad, i) (s.quad, (i + 1) % 4) (s.quad, i) (s.line, 0) (s.line, 1)
  let (sl, ier) ← solveS g s.slvr sc
  let s := { s with slvr := sl }
  if 0 < ier then return (s, sc)
  else
    let xi0 ← vget sl.getSolution 0
    let xi1 ← vget sl.getSolution 1
    if -ltol ≤ xi0 ∧ xi0 < 1 + ltol ∧ -ltol ≤ xi1 ∧ xi1 < 1 + ltol then
      return ({ s with lambdas := s.lambdas ++ [xi1] }, sc)
    else return (s, sc)

/-- `collectIntersectPoints` (SgQuadLineIntersect.h:235-289). -/
def collectIntersectPointsL (g : Gels F) (srt : List F → List F) (grow : Nat → Nat) (m : Memory F) (s : QuadMemory.Line F) (sc : Scratch F) :
    Cxx ((QuadMemory.Line F × Found) × Scratch F) := do
  let (s, sc) ← collectEndL g m s sc 0 0
  let (s, sc) ← forN 4 (s, sc) fun i r => collectEdgeL g m r.1 r.2 i
  let (s, sc) ← collectEndL g m s sc 1 1
  let s := { s with lambdas := srt s.lambdas }
  let npts := s.lambdas.length
  let pts := s.pts.resize grow (2 * npts)
  let data ← forN npts pts.data fun i data => do
    let lambda ← vget s.lambdas i
    let a ← loadPt m s.line 0
    let b ← loadPt m s.line 1
    let data ← vset data (i * 2 + 0) (a.1 + lambda * (b.1 - a.1))
    vset data (i * 2 + 1) (a.2 + lambda * (b.2 - a.2))
  let s := { s with pts := { pts with data } }
  return ((s, { numPoints := SideIterator.toInt npts, points := if npts > 0 then some s.pts.id else none }), sc)

/-- A history of calls. -/
def runLine (g : Gels F) (srt : List F → List F) (grow : Nat → Nat) :
    Memory F → QuadMemory.Line F → Scratch F → List (LineCall F) → Cxx (List (Answer F))
  | _, _, _, [] => .ok []
  | _, s, sc, .memory m :: cs => do
    let l ← runLine g srt grow m s sc cs
    return .done :: l
  | m, s, sc, .setQuad p :: cs => do
    let s ← s.setQuadPoints m p
    let l ← runLine g srt grow m s sc cs
    return .done :: l
  | m, s, sc, .setLine p :: cs => do
    let s ← s.setLinePoints m p
    let l ← runLine g srt grow m s sc cs
    return .done :: l
  | m, s, sc, .reset :: cs => do
    let l ← runLine g srt grow m s.reset sc cs
    return .done :: l
  | m, s, sc, .overlap :: cs => do
    let b ← s.checkIfOverlap
    let l ← runLine g srt grow m s sc cs
    return .overlap b :: l
  | m, s, sc, .collect :: cs => do
    let ((s, r), sc) ← collectIntersectPointsL g srt grow m s sc
    let l ← runLine g srt grow m s sc cs
    return .points r.numPoints (r.points.map fun _ => s.pts.data) :: l

end Sg.QuadScratch
