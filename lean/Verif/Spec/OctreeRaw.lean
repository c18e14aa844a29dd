import Verif.Model.OctreeRaw
/-
Specification for C131.
-/
namespace Sg.Spec
open Sg.Octree

variable {F : Type} {n : Nat}

/-- The vectors and maps `r` hold the tree `t` on `n` axes and the list `keys` of the keys of the points. -/
structure Holds (r : RTree F) (t : Tree F n) (keys : List (Nat × List Nat)) : Prop where
  axes : r.ndims = n
  levels : r.nlevs = t.nlevs
  low : r.xmins = List.ofFn t.xmins
  high : r.xmaxs = List.ofFn t.xmaxs
  strides : r.prodDims = List.ofFn fun j : Fin n => 2 ^ (n - 1 - (j : Nat))
  boxes : r.octree = t.octree.map fun e => (e.1, List.ofFn e.2.1, List.ofFn e.2.2)
  points : r.node2Key = keys

/-- The constructor was given memory with all the numbers of the points. -/
def Readable {F : Type} (ndims npoints : Int) (mem : List F) : Prop :=
  0 ≤ npoints ∧ npoints * ndims ≤ 2147483647 ∧ npoints * ndims ≤ mem.length

end Sg.Spec
