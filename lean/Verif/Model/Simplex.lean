import Verif.Model.Cxx
/-
Model of `SgLine`, `SgTriangle` and `SgTetrahedron` (/repo/cpp/SgLine.cpp, SgTriangle.cpp,
SgTetrahedron.cpp).  The caller's memory is a function from addresses to scalars; pointers are
addresses.  `NDIMS_PHYS` is 3 (/repo/cpp/SgNdims.h).
-/
namespace Sg.Simplex

variable {F : Type}

/-- Object members: points, edges and faces (SgTetrahedron.h:10-14, SgTriangle.h:10-13,
SgLine.h:10-12). -/
structure Obj (F : Type) where
  points : List (List F)
  edges : List (List Nat)
  faces : List (List Nat)

/-- `std::vector<double>(p, p + NDIMS_PHYS)` (e.g. SgTetrahedron.cpp:18): copies three scalars. -/
def copyPoint (mem : Nat → F) (p : Nat) : List F := [mem p, mem (p + 1), mem (p + 2)]

/-- `SgLine_new` (SgLine.cpp:10-20). -/
def lineNew (mem : Nat → F) (p0 p1 : Nat) : Obj F :=
  { points := [copyPoint mem p0, copyPoint mem p1], edges := [], faces := [] }

/-- `SgTriangle_new` (SgTriangle.cpp:10-30). -/
def triangleNew (mem : Nat → F) (p0 p1 p2 : Nat) : Obj F :=
  { points := [copyPoint mem p0, copyPoint mem p1, copyPoint mem p2]
    edges := [[0, 1], [1, 2], [2, 0]]
    faces := [] }

/-- `SgTetrahedron_new` (SgTetrahedron.cpp:10-48). -/
def tetrahedronNew (mem : Nat → F) (p0 p1 p2 p3 : Nat) : Obj F :=
  { points := [copyPoint mem p0, copyPoint mem p1, copyPoint mem p2, copyPoint mem p3]
    edges := [[0, 1], [1, 2], [2, 0], [0, 3], [1, 3], [2, 3]]
    faces := [[0, 1, 2], [0, 3, 1], [3, 1, 2], [0, 2, 3]] }

/-- `points[(size_t) i]`, `edges[(size_t) i]`, ...: a negative `int` becomes a huge `size_t`. -/
def at' {α : Type} (l : List α) (i : Int) : Cxx α :=
  if i < 0 then .error .outOfBounds else vget l i.toNat

/-- `SgX_getPoint` (SgLine.cpp:38-42, SgTriangle.cpp:55-59, SgTetrahedron.cpp:80-84).
Simplification: the pointer to the stored copy is represented by the copy's contents. -/
def Obj.getPoint (o : Obj F) (i : Int) : Cxx (List F) := at' o.points i
/-- `SgX_getEdge` (SgTriangle.cpp:61-65, SgTetrahedron.cpp:86-90). -/
def Obj.getEdge (o : Obj F) (i : Int) : Cxx (List Nat) := at' o.edges i
/-- `SgTetrahedron_getFace` (SgTetrahedron.cpp:92-96). -/
def Obj.getFace (o : Obj F) (i : Int) : Cxx (List Nat) := at' o.faces i
/-- `SgX_getNumberOfPoints/Edges/Faces` (SgTetrahedron.cpp:59-77 and the same in the others). -/
def Obj.getNumberOfPoints (o : Obj F) : Nat := o.points.length
def Obj.getNumberOfEdges (o : Obj F) : Nat := o.edges.length
def Obj.getNumberOfFaces (o : Obj F) : Nat := o.faces.length

end Sg.Simplex
