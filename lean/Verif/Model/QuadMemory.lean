import Verif.Model.QuadIntersect
import Verif.Model.QuadLineIntersect
import Verif.Model.QuadLineFlows
import Verif.Model.SideIterator
/-
Model of the three classes on quadrilaterals as they keep pointers to arrays of the caller
(/repo/cpp/SgQuadIntersect.h, SgQuadLineIntersect.h, SgQuadLineFlows.h and their C interfaces): what is copied by a setter, what
is read at a later call, flat arrays of coordinates, the vector whose address is handed out and the `int` count of its points.
The systems that are solved and the tests on their solutions are those of `Model/QuadIntersect`, `Model/QuadLineIntersect` and
`Model/QuadLineFlows`; the reads of a triangle or of an edge are put before the system is filled in, nothing being written to
memory of the caller in between.  Simplifications: the pointers of the caller do not point into the vectors of the object itself,
and memory for these vectors is unlimited.
-/
namespace Sg.QuadMemory
open Sg.LinearSolve Sg.Triangulate Sg.QuadIntersect Sg.QuadLine Sg.QuadFlows Sg.FindPoint

variable {F : Type} [Zero F] [One F] [Add F] [Sub F] [Mul F] [Div F] [Neg F] [LT F] [DecidableLT F]
  [LE F] [DecidableLE F] [DecidableEq F] [NatCast F] [IntCast F] [FOps F]

/-- Memory of the caller: the numbers in the arrays that are there. -/
abbrev Memory (F : Type) := Nat → Option (List F)

/-- A pointer to an entry of an array of the caller; a `double*` is an `Option Ptr`, `none` being `NULL`. -/
structure Ptr where
  block : Nat
  off : Nat
  deriving DecidableEq

/-- `p[i]`. -/
def load (m : Memory F) (p : Option Ptr) (i : Nat) : Cxx F :=
  match p with
  | none => .error .nullDeref
  | some p =>
    match m p.block with
    | none => .error .badPointer
    | some l => vget l (p.off + i)

/-- The two coordinates `p[i*NDIMS_2D_PHYS + 0]` and `p[i*NDIMS_2D_PHYS + 1]` of node `i` of a flat array. -/
def loadPt (m : Memory F) (p : Option Ptr) (i : Nat) : Cxx (Pt F) := do
  let x ← load m p (i * 2 + 0)
  let y ← load m p (i * 2 + 1)
  return (x, y)

/-- A `std::vector<double>` whose address is handed out: content, capacity and number of the memory it is in. -/
structure Vec (F : Type) where
  data : List F
  cap : Nat
  id : Nat

/-- `push_back`; `grow` gives the capacity taken when there is no room left. -/
def Vec.push (grow : Nat → Nat) (v : Vec F) (a : F) : Vec F :=
  if v.data.length < v.cap then { v with data := v.data ++ [a] }
  else { data := v.data ++ [a], cap := grow v.data.length, id := v.id + 1 }

/-- `resize(0)`. -/
def Vec.clear (v : Vec F) : Vec F := { v with data := [] }

/-- What `collectIntersectPoints` gives back: `*numPoints`, and for `*points` the memory of the vector, or `none` for `NULL`. -/
structure Found where
  numPoints : Int
  points : Option Nat

/-! ### Two quadrilaterals -/

/-- Members (SgQuadIntersect.h:17-35). -/
structure Isect (F : Type) where
  slvr : Solver F
  quad1 : Option Ptr
  quad2 : Option Ptr
  pts : Vec F

/-- Constructor (SgQuadIntersect.h:40-49). -/
def Isect.new : Isect F := { slvr := LinearSolve.new 2 2, quad1 := none, quad2 := none, pts := ⟨[], 0, 0⟩ }

/-- `reset` (SgQuadIntersect.h:51-53). -/
def Isect.reset (s : Isect F) : Isect F := { s with pts := s.pts.clear }

/-- `setQuadPoints` (SgQuadIntersect.h:214-217): nothing is read. -/
def Isect.setQuadPoints (s : Isect F) (p1 p2 : Option Ptr) : Isect F := { s with quad1 := p1, quad2 := p2 }

/-- One coordinate of the four nodes (SgQuadIntersect.h:67-73). -/
def loadAxis (m : Memory F) (p : Option Ptr) (j : Nat) : Cxx (Fin 4 → F) := do
  let a ← load m p (0 * 2 + j)
  let b ← load m p (1 * 2 + j)
  let c ← load m p (2 * 2 + j)
  let d ← load m p (3 * 2 + j)
  return fun i => match i with | 0 => a | 1 => b | 2 => c | 3 => d

/-- `checkIfBoxesOverlap` (SgQuadIntersect.h:59-79). -/
def Isect.checkIfBoxesOverlap (m : Memory F) (s : Isect F) : Cxx Bool :=
  forN 2 true fun j overlap => do
    let q1 ← loadAxis m s.quad1 j
    let q2 ← loadAxis m s.quad2 j
    return overlap && axisOverlap q1 q2

/-- `isPointInCell` (SgQuadIntersect.h:139-151) with `checkIfPointIsInsideTriangle` (89-114): node `i` of `p` in the quadrilateral
at `q`. -/
def isPointInCell (g : Gels F) (m : Memory F) (s : Solver F) (p : Option Ptr) (i : Nat) (q : Option Ptr) :
    Cxx (Solver F × Bool) := do
  let pt ← loadPt m p i
  let n0 ← loadPt m q 0
  let n1 ← loadPt m q 1
  let n2 ← loadPt m q 3
  let (s, b) ← QuadIntersect.checkIfPointIsInsideTriangle g s pt n0 n1 n2
  if b then return (s, true)
  else
    let n0 ← loadPt m q 2
    let n1 ← loadPt m q 3
    let n2 ← loadPt m q 1
    QuadIntersect.checkIfPointIsInsideTriangle g s pt n0 n1 n2

/-- `collectNodesInsideQuad` (SgQuadIntersect.h:158-167). -/
def Isect.collectNodesInsideQuad (g : Gels F) (grow : Nat → Nat) (m : Memory F) (s : Isect F) (nodes quad : Option Ptr) :
    Cxx (Isect F) :=
  forN 4 s fun i s => do
    let (sl, b) ← isPointInCell g m s.slvr nodes i quad
    let s := { s with slvr := sl }
    if b then
      forN 2 s fun j s => do
        let x ← load m nodes (i * 2 + j)
        return { s with pts := s.pts.push grow x }
    else return s

/-- `collectEdgeToEdgeIntersectionPoints` (SgQuadIntersect.h:178-212) for edge `i` of the first and edge `j` of the second
quadrilateral (236-249): the two coordinates of the point are pushed one after the other. -/
def Isect.collectEdge (g : Gels F) (grow : Nat → Nat) (m : Memory F) (s : Isect F) (i j : Nat) : Cxx (Isect F) := do
  let a0 ← loadPt m s.quad1 i
  let a1 ← loadPt m s.quad1 ((i + 1) % 4)
  let b0 ← loadPt m s.quad2 j
  let b1 ← loadPt m s.quad2 ((j + 1) % 4)
  let (sl, ier) ← solve2 g s.slvr (edgeMat a0 a1 b0 b1) (triRhs b0 a0)
  let s := { s with slvr := sl }
  if 0 < ier then return s
  else
    let xi0 ← vget sl.getSolution 0
    let xi1 ← vget sl.getSolution 1
    if tol < xi0 ∧ xi0 ≤ 1 - tol ∧ tol < xi1 ∧ xi1 ≤ 1 - tol then
      let v := s.pts.push grow (a0.1 + xi0 * (a1.1 - a0.1))
      let v := v.push grow (a0.2 + xi0 * (a1.2 - a0.2))
      return { s with pts := v }
    else return s

/-- The values given back (SgQuadIntersect.h:254-258, SgQuadLineIntersect.h:276-280): the test is on the `int`. -/
def Vec.found (v : Vec F) : Found :=
  let numPoints := SideIterator.toInt (v.data.length / 2)
  { numPoints, points := if numPoints > 0 then some v.id else none }

/-- `collectIntersectPoints` (SgQuadIntersect.h:225-259). -/
def Isect.collectIntersectPoints (g : Gels F) (grow : Nat → Nat) (m : Memory F) (s : Isect F) : Cxx (Isect F × Found) := do
  let s ← s.collectNodesInsideQuad g grow m s.quad1 s.quad2
  let s ← s.collectNodesInsideQuad g grow m s.quad2 s.quad1
  let s ← forN 4 s fun i s => forN 4 s fun j s => s.collectEdge g grow m i j
  return (s, s.pts.found)

/-! ### A quadrilateral and a segment -/

/-- Members (SgQuadLineIntersect.h:18-47).  `pts` is `intersectionPoints`. -/
structure Line (F : Type) where
  slvr : Solver F
  quad : Option Ptr
  line : Option Ptr
  quadBox : Option (Box F)
  lineBox : Option (Box F)
  lambdas : List F
  pts : Vec F

/-- Constructor (SgQuadLineIntersect.h:52-62). -/
def Line.new : Line F :=
  { slvr := LinearSolve.new 2 2, quad := none, line := none, quadBox := none, lineBox := none, lambdas := [], pts := ⟨[], 0, 0⟩ }

/-- `reset` (SgQuadLineIntersect.h:64-66). -/
def Line.reset (s : Line F) : Line F := { s with lambdas := [] }

/-- `setQuadPoints` (SgQuadLineIntersect.h:188-203): the box is computed now. -/
def Line.setQuadPoints (m : Memory F) (s : Line F) (p : Option Ptr) : Cxx (Line F) := do
  let x ← loadAxis m p 0
  let y ← loadAxis m p 1
  return { s with quad := p, quadBox := some { min := (quadMin x, quadMin y), max := (quadMax x, quadMax y) } }

/-- `setLinePoints` (SgQuadLineIntersect.h:209-228): the box is computed now. -/
def Line.setLinePoints (m : Memory F) (s : Line F) (p : Option Ptr) : Cxx (Line F) := do
  let a ← loadPt m p 0
  let b ← loadPt m p 1
  return { s with line := p, lineBox := some (QuadLine.lineBox a b) }

/-- `checkIfOverlap` (SgQuadLineIntersect.h:72-81). -/
def Line.checkIfOverlap (s : Line F) : Cxx Bool :=
  match s.quadBox, s.lineBox with
  | some bq, some bl =>
    .ok (decide (stdMax bq.min.1 bl.min.1 ≤ stdMin bq.max.1 bl.max.1) &&
      decide (stdMax bq.min.2 bl.min.2 ≤ stdMin bq.max.2 bl.max.2))
  | _, _ => .error .uninit

/-- `isPointInQuad` (SgQuadLineIntersect.h:131-143) with `checkIfPointIsInsideTriangle` (91-116): end `i` of the segment at `p`. -/
def isPointInQuad (g : Gels F) (m : Memory F) (s : Solver F) (p : Option Ptr) (i : Nat) (q : Option Ptr) :
    Cxx (Solver F × Bool) := do
  let pt ← loadPt m p i
  let n0 ← loadPt m q 0
  let n1 ← loadPt m q 1
  let n2 ← loadPt m q 3
  let (s, b) ← QuadLine.checkIfPointIsInsideTriangle g s pt n0 n1 n2
  if b then return (s, true)
  else
    let n0 ← loadPt m q 2
    let n1 ← loadPt m q 3
    let n2 ← loadPt m q 1
    QuadLine.checkIfPointIsInsideTriangle g s pt n0 n1 n2

/-- The test of one end of the segment (SgQuadLineIntersect.h:240-242 and 259-261). -/
def Line.collectEnd (g : Gels F) (m : Memory F) (s : Line F) (i : Nat) (lambda : F) : Cxx (Line F) := do
  let (sl, b) ← isPointInQuad g m s.slvr s.line i s.quad
  let s := { s with slvr := sl }
  return if b then { s with lambdas := s.lambdas ++ [lambda] } else s

/-- `collectEdgeToLineIntersectionPoints` (SgQuadLineIntersect.h:153-182) for edge `i` (248-257). -/
def Line.collectEdge (g : Gels F) (m : Memory F) (s : Line F) (i : Nat) : Cxx (Line F) := do
  let e0 ← loadPt m s.quad i
  let e1 ← loadPt m s.quad ((i + 1) % 4)
  let a ← loadPt m s.line 0
  let b ← loadPt m s.line 1
  let (sl, ier) ← solve2 g s.slvr (edgeMat e0 e1 a b) (triRhs a e0)
  let s := { s with slvr := sl }
  if 0 < ier then return s
  else
    let xi0 ← vget sl.getSolution 0
    let xi1 ← vget sl.getSolution 1
    if -ltol ≤ xi0 ∧ xi0 < 1 + ltol ∧ -ltol ≤ xi1 ∧ xi1 < 1 + ltol then
      return { s with lambdas := s.lambdas ++ [xi1] }
    else return s

/-- `resize(k)` on the vector of points: no new memory if there is room. -/
def Vec.resize (grow : Nat → Nat) (v : Vec F) (k : Nat) : Vec F :=
  if k ≤ v.cap then { v with data := v.data.take k ++ List.replicate (k - v.data.length) 0 }
  else { data := v.data.take k ++ List.replicate (k - v.data.length) 0, cap := max k (grow v.cap), id := v.id + 1 }

/-- `collectIntersectPoints` (SgQuadLineIntersect.h:235-289). -/
def Line.collectIntersectPoints (g : Gels F) (srt : List F → List F) (grow : Nat → Nat) (m : Memory F) (s : Line F) :
    Cxx (Line F × Found) := do
  let s ← s.collectEnd g m 0 0
  let s ← forN 4 s fun i s => s.collectEdge g m i
  let s ← s.collectEnd g m 1 1
  let s := { s with lambdas := srt s.lambdas }
  let npts := s.lambdas.length
  let pts := s.pts.resize grow (2 * npts)
  let data ← forN npts pts.data fun i data => do
    let lambda ← vget s.lambdas i
    let a ← loadPt m s.line 0
    let b ← loadPt m s.line 1
    let data ← vset data (i * 2 + 0) (a.1 + lambda * (b.1 - a.1))
    vset data (i * 2 + 1) (a.2 + lambda * (b.2 - a.2))
  let s := { s with pts := { pts with data } }
  return (s, { numPoints := SideIterator.toInt npts, points := if npts > 0 then some s.pts.id else none })

/-! ### Flows -/

/-- Members (SgQuadLineFlows.h:22-38).  `quad` is kept and never read. -/
structure Flows (F : Type) where
  quad : Option Ptr
  line : Option Ptr
  projections : Option (Fin 4 → F)
  finder : Finder F 2
  xia : Fin 2 → F
  xib : Fin 2 → F

/-- Constructor (SgQuadLineFlows.h:43-55). -/
def Flows.new : Flows F :=
  { quad := none, line := none, projections := none, finder := Finder.new flowIters flowTol, xia := fun _ => 0, xib := fun _ => 0 }

/-- One row of `quadGridCoords` (SgQuadLineFlows.h:77-80); it has four entries. -/
def loadGrid (m : Memory F) (p : Option Ptr) (k : Nat) : Cxx (Nat → F) := do
  let a ← load m p (0 * 2 + k)
  let b ← load m p (3 * 2 + k)
  let c ← load m p (1 * 2 + k)
  let d ← load m p (2 * 2 + k)
  return fun j => match j with | 0 => a | 1 => b | 2 => c | _ => d

/-- `setQuadPoints` (SgQuadLineFlows.h:70-86): the coordinates are copied into the grid of the finder now. -/
def Flows.setQuadPoints (m : Memory F) (s : Flows F) (p : Option Ptr) : Cxx (Flows F) := do
  let x ← loadGrid m p 0
  let y ← loadGrid m p 1
  return { s with quad := p
                  finder := s.finder.setGrid (fun _ => 2) (fun _ => 0) fun k j => match k with | 0 => x j | 1 => y j }

/-- `setLinePoints` (SgQuadLineFlows.h:92-94): nothing is read. -/
def Flows.setLinePoints (s : Flows F) (p : Option Ptr) : Flows F := { s with line := p }

/-- `computeStartEndLineIndices` (SgQuadLineFlows.h:137-177). -/
def Flows.computeStartEndLineIndices (g : Gels F) (m : Memory F) (s : Flows F) : Cxx (Flows F × Int) :=
  if s.line = none then .ok (s, -1)
  else do
    let a ← loadPt m s.line 0
    let (endA, xia, f) ← findIndices g s.finder a
    let s := { s with finder := f, xia := xia }
    let res : Int := if endA ≠ 1 then 1 else 0
    let b ← loadPt m s.line 1
    let (endB, xib, f) ← findIndices g s.finder b
    let s := { s with finder := f, xib := xib }
    let res : Int := if endB ≠ 1 then 2 else res
    return (s, res)

/-- `computeProjections` (SgQuadLineFlows.h:109-129). -/
def Flows.computeProjections (g : Gels F) (m : Memory F) (s : Flows F) : Cxx (Flows F × Int) := do
  let (s, res) ← s.computeStartEndLineIndices g m
  return ({ s with projections := some (projOf s.xia s.xib) }, res)

/-- `getProjection` (SgQuadLineFlows.h:102-104). -/
def Flows.getProjection (s : Flows F) (edge : Int) : Cxx F :=
  match s.projections with
  | none => .error .uninit
  | some p => if h : 0 ≤ edge ∧ edge < 4 then .ok (p ⟨edge.toNat, by omega⟩) else .error .outOfBounds

end Sg.QuadMemory
