import Verif.Model.QuadIntersect
import Verif.Model.FindPoint
/-
Model of `SgQuadLineFlows_type` (/repo/cpp/SgQuadLineFlows.h; the C interface /repo/cpp/SgQuadLineFlows.cpp only
forwards).  Coordinates are represented as in `Verif/Model/QuadIntersect.lean`.  `F` is the scalar type, of which only
operations are assumed; `g` is the linear algebra library.
-/
namespace Sg.QuadFlows
open Sg.LinearSolve Sg.Triangulate Sg.QuadIntersect Sg.FindPoint

variable {F : Type} [Zero F] [One F] [Add F] [Sub F] [Mul F] [Div F] [Neg F] [LT F] [DecidableLT F]
  [LE F] [DecidableLE F] [DecidableEq F] [NatCast F] [IntCast F] [FOps F]

/-- Members (SgQuadLineFlows.h:22-38).  `quadCoords` is stored and never read and is not represented; `quadGridCoords` is
a buffer whose content is copied by the finder.  `lineCoords` is represented by the two points it points to
(simplification: the caller leaves the array unchanged between the setter and its use; `Model/QuadMemory` does without), `none` is
`NULL`.  The array
`projections` has no value (`none`) until it is computed. -/
structure Flows (F : Type) where
  line : Option (Pt F × Pt F)
  projections : Option (Fin 4 → F)
  finder : Finder F 2
  xia : Fin 2 → F
  xib : Fin 2 → F

/-- `nitermax` and `tolpos` (SgQuadLineFlows.h:52-53). -/
def flowIters : Int := 10
def flowTol : F := ((1 : Nat) : F) / ((10000000000 : Nat) : F)

/-- Constructor (SgQuadLineFlows.h:43-55). -/
def Flows.new : Flows F :=
  { line := none, projections := none, finder := Finder.new flowIters flowTol, xia := fun _ => 0, xib := fun _ => 0 }

/-- A component of a point. -/
def comp (p : Pt F) (k : Fin 2) : F := match k with | 0 => p.1 | 1 => p.2

/-- `quadGridCoords` (SgQuadLineFlows.h:76-81): node of the quadrilateral stored at each place. -/
def gridNode (j : Nat) : Fin 4 := match j with | 0 => 0 | 1 => 3 | 2 => 1 | _ => 2

/-- `setQuadPoints` (SgQuadLineFlows.h:70-86). -/
def Flows.setQuadPoints (s : Flows F) (q : Quad F) : Flows F :=
  { s with finder := s.finder.setGrid (fun _ => 2) (fun _ => 0) (fun k j => comp (q (gridNode j)) k) }

/-- `setLinePoints` (SgQuadLineFlows.h:92-94). -/
def Flows.setLinePoints (s : Flows F) (a b : Pt F) : Flows F := { s with line := some (a, b) }

/-- `getProjection` (SgQuadLineFlows.h:102-104). -/
def Flows.getProjection (s : Flows F) (edge : Int) : Cxx F :=
  match s.projections with
  | none => .error .uninit
  | some p => if h : 0 ≤ edge ∧ edge < 4 then .ok (p ⟨edge.toNat, by omega⟩) else .error .outOfBounds

/-- One search (SgQuadLineFlows.h:148-162 and 164-175): the last code, the indices found and the finder.  Searches that
run out of `fuelOf` steps do not exist (C31). -/
def findIndices (g : Gels F) (f : Finder F 2) (p : Pt F) : Cxx (Int × (Fin 2 → F) × Finder F 2) := do
  let init : Fin 2 → F := fun _ => 1 / (1 + 1)
  let f := f.reset init (comp p)
  let r ← searchLoop g f.fuelOf f
  return (r.1, r.2.dIndices, r.2)

/-- `computeStartEndLineIndices` (SgQuadLineFlows.h:137-177). -/
def Flows.computeStartEndLineIndices (g : Gels F) (s : Flows F) : Cxx (Flows F × Int) :=
  match s.line with
  | none => .ok (s, -1)
  | some (a, b) => do
    let (endA, xia, f) ← findIndices g s.finder a
    let s := { s with finder := f, xia := xia }
    let res : Int := if endA ≠ 1 then 1 else 0
    let (endB, xib, f) ← findIndices g s.finder b
    let s := { s with finder := f, xib := xib }
    let res : Int := if endB ≠ 1 then 2 else res
    return (s, res)

/-- The four projections (SgQuadLineFlows.h:113-126). -/
def projOf (xia xib : Fin 2 → F) : Fin 4 → F :=
  let x0abMid := 1 / (1 + 1) * (xia 0 + xib 0)
  let x1abMid := 1 / (1 + 1) * (xia 1 + xib 1)
  let x0abDiff := xib 0 - xia 0
  let x1abDiff := xib 1 - xia 1
  fun e => match e with
    | 0 => x0abDiff * (1 - x1abMid)
    | 1 => x0abDiff * x1abMid
    | 2 => x1abDiff * (1 - x0abMid)
    | 3 => x1abDiff * x0abMid

/-- `computeProjections` (SgQuadLineFlows.h:109-129): the projections are computed even if a search failed. -/
def Flows.computeProjections (g : Gels F) (s : Flows F) : Cxx (Flows F × Int) := do
  let (s, res) ← s.computeStartEndLineIndices g
  return ({ s with projections := some (projOf s.xia s.xib) }, res)

end Sg.QuadFlows
