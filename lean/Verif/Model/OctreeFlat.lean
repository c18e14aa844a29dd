import Verif.Model.Octree
/-
Model of the constructor of `SgOctreePoints_type` and of the C interface as they take their arguments
(/repo/cpp/SgOctreePoints.h:52-83, /repo/cpp/SgOctreePoints.cpp:9-15): a flat array of numbers.  `Model/Octree` has the rest.
-/
namespace Sg.Octree

variable {F : Type} [Zero F] [One F] [Add F] [Sub F] [Mul F] [Div F] [Neg F] [LT F] [DecidableLT F]

/-- One pass of the loop for the corners of the domain (SgOctreePoints.h:60-65): number `i`, of value `p`, belongs to axis
`i % ndims`. -/
def boundsStep {n : Nat} (i : Nat) (p : F) (lohi : (Fin n → F) × (Fin n → F)) : (Fin n → F) × (Fin n → F) :=
  (fun j => if (j : Nat) = i % n then (if p < lohi.1 j then p else lohi.1 j) else lohi.1 j,
   fun j => if (j : Nat) = i % n then (if lohi.2 j < p then p else lohi.2 j) else lohi.2 j)

/-- Corners of the domain (SgOctreePoints.h:57-65).  `i % ndims` is undefined for `ndims = 0`. -/
def boundsFlat (n : Nat) (big : F) (points : List F) : Cxx ((Fin n → F) × (Fin n → F)) :=
  forN points.length (fun _ => big, fun _ => -big) fun i lohi => do
    if n = 0 then throw .divByZero
    let p ← vget points i
    return boundsStep i p lohi

/-- The numbers `points[i*ndims]` ... that `getKey` reads through its pointer (SgOctreePoints.h:80 and 128), in one go. -/
def readPoint (n : Nat) (points : List F) (i : Nat) : Cxx (Fin n → F) :=
  if h : (i + 1) * n ≤ points.length then
    .ok fun j => points[i * n + j]'(by
      have := j.2
      have : (i + 1) * n = i * n + n := Nat.succ_mul i n
      omega)
  else .error .outOfBounds

/-- The constructor (SgOctreePoints.h:52-83): tree and the map `node2Key`, a list of entries (point number, key). -/
def newFlat [HasFloor F] [NatCast F] (n : Nat) (big : F) (nlevs : Nat) (points : List F) : Cxx (Tree F n × List (Nat × List Nat)) := do
  let b ← boundsFlat n big points
  let t := build b.1 b.2 nlevs
  if n = 0 then throw .divByZero
  let numPoints := points.length / n
  let keys ← forN numPoints ([] : List (Nat × List Nat)) fun i keys => do
    let p ← readPoint n points i
    return keys ++ [(i, t.node2Key p)]
  return (t, keys)

/-- `SgOctreePoints_new` (SgOctreePoints.cpp:9-15).  `mem` is the memory behind the pointer.  The product is an `int`; a negative
one is not a valid range; casts to `size_t` of negative numbers give numbers of levels or of axes for which there is no
memory, which counts as undefined here. -/
def newC [HasFloor F] [NatCast F] (big : F) (numLevels ndims npoints : Int) (mem : List F) :
    Cxx (Tree F ndims.toNat × List (Nat × List Nat)) := do
  let m ← imul npoints ndims
  if m < 0 ∨ mem.length < m.toNat then throw .badPointer
  if numLevels < 0 ∨ ndims < 0 then throw .badCast
  newFlat ndims.toNat big numLevels.toNat (mem.take m.toNat)

end Sg.Octree
