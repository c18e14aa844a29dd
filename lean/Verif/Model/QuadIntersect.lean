import Verif.Model.LinearSolve
import Verif.Model.Triangulate
/-
Model of `SgQuadIntersect_type` (/repo/cpp/SgQuadIntersect.h, C interface /repo/cpp/SgQuadIntersect.cpp).
A flat array of 8 coordinates is a function from the four nodes to points: the two coordinates of a node are always read
together.  The scalar type has the operations only, no laws.  The members `mat` and `rhs` are scratch space, written
before each use: see `Model/QuadScratch`.  The linear algebra library is the parameter `g`.
-/
namespace Sg.QuadIntersect
open Sg.LinearSolve Sg.Triangulate

variable {F : Type} [Zero F] [One F] [Add F] [Sub F] [Mul F] [Div F] [Neg F] [LT F] [DecidableLT F] [LE F] [DecidableLE F]
  [NatCast F]

/-- The four nodes of a quadrilateral. -/
abbrev Quad (F : Type) := Fin 4 → Pt F

/-- `tol` (SgQuadIntersect.h:43). -/
def tol : F := 1 / ((1000000000000 : Nat) : F)

/-- Members (SgQuadIntersect.h:17-34).  The pointers to the quadrilaterals are represented by what they point to
(simplification: the caller leaves the arrays unchanged between `setQuadPoints` and their use; `Model/QuadMemory` does without), `none`
is `NULL`. -/
structure Isect (F : Type) where
  slvr : Solver F
  quad1 : Option (Quad F)
  quad2 : Option (Quad F)
  pts : List (Pt F)

/-- Constructor (SgQuadIntersect.h:39-48). -/
def Isect.new : Isect F := { slvr := LinearSolve.new 2 2, quad1 := none, quad2 := none, pts := [] }

/-- `reset` (SgQuadIntersect.h:50-52). -/
def Isect.reset (s : Isect F) : Isect F := { s with pts := [] }

/-- `setQuadPoints` (SgQuadIntersect.h:214-217). -/
def Isect.setQuadPoints (s : Isect F) (q1 q2 : Quad F) : Isect F := { s with quad1 := some q1, quad2 := some q2 }

/-! ### Bounding boxes -/

/-- `std::min`, `std::max`. -/
def stdMin (a b : F) : F := if b < a then b else a
def stdMax (a b : F) : F := if a < b then b else a

/-- Smallest and largest coordinate, the loop over the nodes being unrolled (SgQuadIntersect.h:64-74).  The start value
plus or minus infinity is replaced by the first coordinate, whatever it is, since nothing is beyond infinity. -/
def quadMin (q : Fin 4 → F) : F := stdMin (q 3) (stdMin (q 2) (stdMin (q 1) (q 0)))
def quadMax (q : Fin 4 → F) : F := stdMax (q 3) (stdMax (q 2) (stdMax (q 1) (q 0)))

/-- One round of the loop over the axes (SgQuadIntersect.h:63-77). -/
def axisOverlap (q1 q2 : Fin 4 → F) : Bool :=
  decide (stdMax (quadMin q1) (quadMin q2) ≤ stdMin (quadMax q1) (quadMax q2))

/-- `checkIfBoxesOverlap` (SgQuadIntersect.h:59-79). -/
def boxesOverlap (q1 q2 : Quad F) : Bool :=
  axisOverlap (fun i => (q1 i).1) (fun i => (q2 i).1) && axisOverlap (fun i => (q1 i).2) (fun i => (q2 i).2)

/-- The method, which reads the stored pointers. -/
def Isect.checkIfBoxesOverlap (s : Isect F) : Cxx Bool :=
  match s.quad1, s.quad2 with
  | some q1, some q2 => .ok (boxesOverlap q1 q2)
  | _, _ => .error .nullDeref

/-! ### Points in cells -/

/-- Use of the solver (SgQuadIntersect.h:100-102 and 191-193). -/
def solve2 (g : Gels F) (s : Solver F) (mat rhs : Nat → F) : Cxx (Solver F × Int) := do
  let s ← s.setMatrix mat
  let s ← s.setRightHandSide rhs
  s.solve g

/-- Matrix and right-hand side of the system for a point and a triangle (SgQuadIntersect.h:95-99). -/
def triMat (n0 n1 n2 : Pt F) (k : Nat) : F :=
  match k with | 0 => n1.1 - n0.1 | 1 => n2.1 - n0.1 | 2 => n1.2 - n0.2 | _ => n2.2 - n0.2
def triRhs (pt n0 : Pt F) (k : Nat) : F := match k with | 0 => pt.1 - n0.1 | _ => pt.2 - n0.2

/-- `checkIfPointIsInsideTriangle` (SgQuadIntersect.h:89-114). -/
def checkIfPointIsInsideTriangle (g : Gels F) (s : Solver F) (pt n0 n1 n2 : Pt F) : Cxx (Solver F × Bool) := do
  let (s, ier) ← solve2 g s (triMat n0 n1 n2) (triRhs pt n0)
  if 0 < ier then return (s, false)
  else
    let xi0 ← vget s.getSolution 0
    let xi1 ← vget s.getSolution 1
    return (s, decide (-tol < xi0) && decide (xi0 ≤ 1 + tol) && decide (-tol < xi1) && decide (xi0 + xi1 ≤ 1 + tol))

/-- `isPointInCell` (SgQuadIntersect.h:139-151). -/
def isPointInCell (g : Gels F) (s : Solver F) (pt : Pt F) (q : Quad F) : Cxx (Solver F × Bool) := do
  let (s, b) ← checkIfPointIsInsideTriangle g s pt (q 0) (q 1) (q 3)
  if b then return (s, true)
  else checkIfPointIsInsideTriangle g s pt (q 2) (q 3) (q 1)

/-- `addPoint` (SgQuadIntersect.h:120-124). -/
def Isect.addPoint (s : Isect F) (p : Pt F) : Isect F := { s with pts := s.pts ++ [p] }

/-- The index of a node below four. -/
def node (i : Nat) : Fin 4 := ⟨i % 4, Nat.mod_lt _ (by omega)⟩

/-- `collectNodesInsideQuad` (SgQuadIntersect.h:158-167). -/
def Isect.collectNodesInsideQuad (g : Gels F) (s : Isect F) (nodes quad : Quad F) : Cxx (Isect F) :=
  forN 4 s fun i s => do
    let (sl, b) ← isPointInCell g s.slvr (nodes (node i)) quad
    let s := { s with slvr := sl }
    return if b then s.addPoint (nodes (node i)) else s

/-! ### Crossings of edges -/

/-- Matrix of the system for two edges (SgQuadIntersect.h:186-190); the right-hand side is that of a triangle. -/
def edgeMat (a0 a1 b0 b1 : Pt F) (k : Nat) : F :=
  match k with | 0 => a1.1 - a0.1 | 1 => b0.1 - b1.1 | 2 => a1.2 - a0.2 | _ => b0.2 - b1.2

/-- `collectEdgeToEdgeIntersectionPoints` (SgQuadIntersect.h:178-212): the point, if any, is added and returned. -/
def Isect.collectEdge (g : Gels F) (s : Isect F) (a0 a1 b0 b1 : Pt F) : Cxx (Isect F × Option (Pt F)) := do
  let (sl, ier) ← solve2 g s.slvr (edgeMat a0 a1 b0 b1) (triRhs b0 a0)
  let s := { s with slvr := sl }
  if 0 < ier then return (s, none)
  else
    let xi0 ← vget sl.getSolution 0
    let xi1 ← vget sl.getSolution 1
    if tol < xi0 ∧ xi0 ≤ 1 - tol ∧ tol < xi1 ∧ xi1 ≤ 1 - tol then
      let pt := (a0.1 + xi0 * (a1.1 - a0.1), a0.2 + xi0 * (a1.2 - a0.2))
      return (s.addPoint pt, some pt)
    else return (s, none)

/-- `collectIntersectPoints` (SgQuadIntersect.h:225-259): the points returned through the pointers are the list `pts`
of the new state, `numPoints` its length. -/
def Isect.collectIntersectPoints (g : Gels F) (s : Isect F) : Cxx (Isect F × List (Pt F)) := do
  match s.quad1, s.quad2 with
  | some q1, some q2 =>
    let s ← s.collectNodesInsideQuad g q1 q2
    let s ← s.collectNodesInsideQuad g q2 q1
    let s ← forN 4 s fun i s => forN 4 s fun j s => do
      let (s, _) ← s.collectEdge g (q1 (node i)) (q1 (node (i + 1))) (q2 (node j)) (q2 (node (j + 1)))
      return s
    return (s, s.pts)
  | _, _ => .error .nullDeref

end Sg.QuadIntersect
