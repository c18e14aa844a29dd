import Verif.Model.Triangulate
import Verif.Model.FindPointRaw
/-
Model of the constructor of `SgTriangulate_type` (/repo/cpp/SgTriangulate.h:20-111) as it is called through the C interface
(/repo/cpp/SgTriangulate.cpp:8-14): any `int` number of points, a flat array in memory of the caller, a sort of indices.
`Model/Triangulate` has the rest of the class.
-/
namespace Sg.Triangulate
open Sg.FindPoint

variable {F : Type} [Zero F] [One F] [Add F] [Sub F] [Mul F] [Div F] [Neg F] [LT F] [DecidableLT F] [NatCast F] [IntCast F]

/-- Constructor of the functor (SgTriangulate.h:33-41). -/
def gravityCenterRaw (numPoints : Int) (mem : List F) : Cxx (Pt F) :=
  forN numPoints.toNat (0, 0) fun i c => do
    let x ← vget mem (2 * i)
    let y ← vget mem (2 * i + 1)
    return (c.1 + x / (numPoints : F), c.2 + y / (numPoints : F))

/-- `distanceSquareFromCenter` (SgTriangulate.h:43-50). -/
def distanceRaw (mem : List F) (c : Pt F) (i : Nat) : Cxx F := do
  let x ← vget mem (2 * i)
  let y ← vget mem (2 * i + 1)
  return 0 + (x - c.1) * (x - c.1) + (y - c.2) * (y - c.2)

/-- `operator()` (SgTriangulate.h:52-57). -/
def lessRaw (mem : List F) (c : Pt F) (i j : Nat) : Cxx Bool := do
  let di ← distanceRaw mem c i
  let dj ← distanceRaw mem c j
  return decide (di < dj)

/-- A `std::sort` of the numbers `0, 1, ..., n - 1` with a comparison, which may fail. -/
abbrev SortInds := (Nat → Nat → Cxx Bool) → Nat → Cxx (List Nat)

/-- Copy of the points in the order of the indices (SgTriangulate.h:95-100). -/
def copyPoints (mem : List F) (inds : List Nat) (points : List F) : Cxx (List F) :=
  forN inds.length points fun i points => do
    let indx ← vget inds i
    forN 2 points fun j points => do
      let x ← vget mem (2 * indx + j)
      vset points (2 * i + j) x

/-- The flat array of coordinates as points. -/
def pairs : List F → List (Pt F)
  | x :: y :: l => (x, y) :: pairs l
  | _ => []

/-- Constructor (SgTriangulate.h:75-111) and `SgTriangulate_new` (SgTriangulate.cpp:8-14).  `mem` is the memory behind the pointer.  From
the removal of degenerate segments on see `build`, except for the last loop, whose bound is `numPoints`; its first index is a `size_t`
converted to `int`, which loses nothing as it is at most the number of points. -/
def newRaw (sort : SortInds) (mode : Mode) (numPoints : Int) (mem : List F) : Call' (Mem F × Mesh) := do
  let m ← lift' (imul 2 numPoints)
  let points ← resize ([] : List F) (toSize m) 0
  let c ← lift' (gravityCenterRaw numPoints mem)
  let _ ← resize ([] : List Nat) (toSize numPoints) 0
  let inds ← lift' (sort (lessRaw mem c) numPoints.toNat)
  let m ← lift' (imul 2 numPoints)
  let points ← resize points (toSize m) 0
  let points ← lift' (copyPoints mem inds points)
  let m := memOf mode (pairs points)
  lift' (do
    let (first, t) ← m.makeFirstTriangle
    let t ← forFrom first (numPoints.toNat - first) t fun ip t => m.addPoint ip t
    return (m, t))

end Sg.Triangulate
