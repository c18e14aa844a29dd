import Verif.Model.Cxx
/-
Model of `SgTriangulate_type` (/repo/cpp/SgTriangulate.h; the C interface /repo/cpp/SgTriangulate.cpp only forwards).
A flat array of 2 n coordinates is a list of n pairs: the two coordinates of a point are always read together.  The
scalar type has the operations only, no laws.  The constant 0.5 is `1/2`, `1.e-12` is `1/10^12`.
-/
namespace Sg.Triangulate

variable {F : Type} [Zero F] [One F] [Add F] [Sub F] [Mul F] [Div F] [Neg F] [LT F] [DecidableLT F] [NatCast F]

abbrev Pt (F : Type) := F × F

/-- `eps` (SgTriangulate.h:79). -/
def eps : F := 1 / ((1000000000000 : Nat) : F)

/-- `std::abs` of a double. -/
def fabs (x : F) : F := if x < 0 then -x else x

/-! ### Sorting -/

/-- `gravityCenter` (SgTriangulate.h:36-40): a running sum of `points[i] / numPoints`. -/
def gravityCenter (points : List (Pt F)) : Pt F :=
  points.foldl (fun c p => (c.1 + p.1 / (points.length : F), c.2 + p.2 / (points.length : F))) (0, 0)

/-- `distanceSquareFromCenter` (SgTriangulate.h:43-50). -/
def distanceSquareFromCenter (c p : Pt F) : F :=
  0 + (p.1 - c.1) * (p.1 - c.1) + (p.2 - c.2) * (p.2 - c.2)

/-- `operator()` of the functor (SgTriangulate.h:52-57), on the points the indices stand for. -/
def sortLt (points : List (Pt F)) (p q : Pt F) : Prop :=
  distanceSquareFromCenter (gravityCenter points) p < distanceSquareFromCenter (gravityCenter points) q

/-- What `std::sort` may leave (SgTriangulate.h:91-100): any rearrangement of the points in which no point comes after a
point it is smaller than.  Which of them is chosen for ties is unspecified.  Simplification: indices are sorted in C++
and the points copied in that order; the rearranged points are what is represented. -/
def IsStdSort (points sorted : List (Pt F)) : Prop :=
  sorted.Perm points ∧ sorted.Pairwise fun p q => ¬ sortLt points q p

/-! ### The object -/

/-- `getDistanceSquare` (SgTriangulate.h:114-122). -/
def distanceSquare (p0 p1 : Pt F) : F := 0 + (p1.1 - p0.1) * (p1.1 - p0.1) + (p1.2 - p0.2) * (p1.2 - p0.2)

/-- The loop of `removeDegenerateSegments` (SgTriangulate.h:141-151) with base point `p0`. -/
def keepDistinct (p0 : Pt F) : List (Pt F) → List (Pt F)
  | [] => []
  | p1 :: ps => if eps < distanceSquare p0 p1 then p1 :: keepDistinct p1 ps else keepDistinct p0 ps

/-- `removeDegenerateSegments` (SgTriangulate.h:124-154): the new value of `points`. -/
def removeDegenerateSegments : List (Pt F) → List (Pt F)
  | [] => []
  | p :: ps => p :: keepDistinct p ps

/-- The member `points` as memory: `size` points are in the vector, the buffer may be longer.  `readable` is the number
of points of the buffer that can be read without undefined behaviour: `size` by the C++ standard. -/
structure Mem (F : Type) where
  buf : List (Pt F)
  size : Nat
  readable : Nat

/-- How reads past the end of a shrunken vector are treated.  `standard`: undefined behaviour.  `keptBuffer`: the
assignment of a shorter vector keeps the buffer and its old tail (what libstdc++ and libc++ do), so that reads in the
old tail deliver the old points; reads past the buffer remain undefined behaviour. -/
inductive Mode
  | standard | keptBuffer
  deriving DecidableEq, Repr

/-- `points` after `this->points = pts` (SgTriangulate.h:153). -/
def memOf (mode : Mode) (sorted : List (Pt F)) : Mem F :=
  let pts := removeDegenerateSegments sorted
  { buf := pts ++ sorted.drop pts.length, size := pts.length,
    readable := match mode with | .standard => pts.length | .keptBuffer => sorted.length }

/-- Read point `i`. -/
def Mem.read (m : Mem F) (i : Nat) : Cxx (Pt F) := if i < m.readable then vget m.buf i else .error .outOfBounds

/-- The value of `getParallelipipedArea` on three points (SgTriangulate.h:237-246). -/
def cross (p0 p1 p2 : Pt F) : F := (p1.1 - p0.1) * (p2.2 - p0.2) - (p1.2 - p0.2) * (p2.1 - p0.1)

/-- `getParallelipipedArea` (SgTriangulate.h:237-246). -/
def Mem.area (m : Mem F) (i0 i1 i2 : Nat) : Cxx F := do
  let p0 ← m.read i0
  let p1 ← m.read i1
  let p2 ← m.read i2
  return cross p0 p1 p2

/-- Dot product in `getExtremaPointIndices` (SgTriangulate.h:169-176). -/
def Mem.dot (m : Mem F) (ic ia ib : Nat) : Cxx F := do
  let pc ← m.read ic
  let pa ← m.read ia
  let pb ← m.read ib
  return 0 + (pa.1 - pc.1) * (pb.1 - pc.1) + (pa.2 - pc.2) * (pb.2 - pc.2)

/-- `getExtremaPointIndices` (SgTriangulate.h:156-183), the loop of at most three rounds being unrolled. -/
def Mem.extrema (m : Mem F) (i0 i1 i2 : Nat) : Cxx (Nat × Nat) := do
  let d0 ← m.dot i0 i1 i2
  if eps < d0 then
    let d1 ← m.dot i1 i2 i0
    if eps < d1 then
      let _ ← m.dot i2 i0 i1
      return (i0, i1)
    else return (i2, i0)
  else return (i1, i2)

/-- The loop of `makeFirstTriangle` (SgTriangulate.h:198-206): `k` is `numPoints - i2`, the number of rounds left. -/
def Mem.firstLoop (m : Mem F) : Nat → Nat → Nat → Nat → F → Cxx (Nat × Nat × Nat × F)
  | 0, i0, i1, i2, area => .ok (i0, i1, i2, area)
  | k + 1, i0, i1, i2, area =>
    if area < eps then do
      let e ← m.extrema i0 i1 i2
      let a ← m.area e.1 e.2 (i2 + 1)
      m.firstLoop k e.1 e.2 (i2 + 1) (fabs a)
    else .ok (i0, i1, i2, area)

/-- `makeCounterClockwise` (SgTriangulate.h:248-257). -/
def Mem.makeCounterClockwise (m : Mem F) (i0 i1 i2 : Nat) : Cxx (Nat × Nat × Nat) := do
  let area ← m.area i0 i1 i2
  return if area < -eps then (i0, i2, i1) else (i0, i1, i2)

/-- Insertion in a `std::set` with order `lt`, as a sorted list: an equal element stays. -/
def setInsert {α : Type} (lt : α → α → Bool) : List α → α → List α
  | [], a => [a]
  | b :: l, a => if lt a b then a :: b :: l else if lt b a then b :: setInsert lt l a else b :: l

/-- Lexicographic order of `std::vector<size_t>` of length 2 and 3. -/
def lt2 (a b : Nat × Nat) : Bool := decide (a.1 < b.1) || (decide (a.1 = b.1) && decide (a.2 < b.2))
def lt3 (a b : Nat × Nat × Nat) : Bool := decide (a.1 < b.1) || (decide (a.1 = b.1) && lt2 a.2 b.2)

/-- `boundaryEdges` and `triIndices` (SgTriangulate.h:66-69). -/
structure Mesh where
  edges : List (Nat × Nat)
  tris : List (Nat × Nat × Nat)
  deriving DecidableEq, Repr

/-- `makeFirstTriangle` (SgTriangulate.h:185-235): the returned index as the `int` the caller uses plus one, i.e. the
first point to add (`numPoints - 1` wraps for no points, and adding one gives 0 back), and the mesh. -/
def Mem.makeFirstTriangle (m : Mem F) : Cxx (Nat × Mesh) := do
  if m.size < 3 then return (m.size, { edges := [], tris := [] })
  else
    let a ← m.area 0 1 2
    let (i0, i1, i2, area) ← m.firstLoop (m.size - 2) 0 1 2 (fabs a)
    if area < eps then return (i2 + 1, { edges := [], tris := [] })
    else
      let (j0, j1, j2) ← m.makeCounterClockwise i0 i1 i2
      return (i2 + 1, { edges := setInsert lt2 (setInsert lt2 (setInsert lt2 [] (j0, j1)) (j1, j2)) (j2, j0)
                        tris := setInsert lt3 [] (j0, j1, j2) })

/-- `isEdgeVisible` (SgTriangulate.h:259-265). -/
def Mem.isEdgeVisible (m : Mem F) (ip ie0 ie1 : Nat) : Cxx Bool := do
  let area ← m.area ip ie0 ie1
  return decide (area < -eps)

/-- Local variables of `addPoint` (SgTriangulate.h:280-281) and the triangles. -/
structure Work where
  tris : List (Nat × Nat × Nat)
  remove : List (Nat × Nat)
  add : List (Nat × Nat)

/-- Loop over the boundary edges in `addPoint` (SgTriangulate.h:284-307).  `&(*it)[2]`, the end of the copied range (line
295), names the entry past the end of a vector of two; only its address is used, and this is not counted as a read. -/
def Mem.scan (m : Mem F) (ip : Nat) : List (Nat × Nat) → Work → Cxx Work
  | [], w => .ok w
  | e :: es, w => do
    let vis ← m.isEdgeVisible ip e.1 e.2
    m.scan ip es (if vis then
      { tris := setInsert lt3 w.tris (e.1, ip, e.2)
        remove := setInsert lt2 w.remove e
        add := setInsert lt2 (setInsert lt2 w.add (e.1, ip)) (ip, e.2) } else w)

/-- `addPoint` (SgTriangulate.h:278-321). -/
def Mem.addPoint (m : Mem F) (ip : Nat) (t : Mesh) : Cxx Mesh := do
  let w ← m.scan ip t.edges { tris := t.tris, remove := [], add := [] }
  return { edges := w.add.foldl (setInsert lt2) (w.remove.foldl (fun l e => l.erase e) t.edges), tris := w.tris }

/-- The constructor after the sort (SgTriangulate.h:102-111); `n` is the argument `numPoints`. -/
def build (mode : Mode) (sorted : List (Pt F)) : Cxx (Mem F × Mesh) := do
  let m := memOf mode sorted
  let (first, t) ← m.makeFirstTriangle
  let t ← forFrom first (sorted.length - first) t fun ip t => m.addPoint ip t
  return (m, t)

/-- `getConvexHullArea` (SgTriangulate.h:267-275). -/
def getConvexHullArea (o : Mem F × Mesh) : Cxx F := do
  let s ← o.2.tris.foldlM (fun s t => do
    let a ← o.1.area t.1 t.2.1 t.2.2
    return s + a) 0
  return s * (1 / (1 + 1))

/-- Construction followed by `getConvexHullArea`, for a given result of the sort. -/
def hullArea (mode : Mode) (sorted : List (Pt F)) : Cxx F := do
  let o ← build mode sorted
  getConvexHullArea o

end Sg.Triangulate
