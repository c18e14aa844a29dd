import Verif.Model.Cxx
import Mathlib.Algebra.BigOperators.Fin
/-
Model of `SgOctreePoints_type` (/repo/cpp/SgOctreePoints.h).  `F` is the scalar type; only the
operations are assumed, no laws.  Vectors of size `ndims` are functions on `Fin n`.
Simplifications, which `Model/OctreeRaw` does without: `ndims < 64` so that `size_t` powers of two do not wrap; `node2Key` is a function.
-/
namespace Sg.Octree

/-- `floor` of the C library. -/
class HasFloor (F : Type) where
  floor : F → F

variable {F : Type} [Zero F] [One F] [Add F] [Sub F] [Mul F] [Div F] [Neg F] [LT F] [DecidableLT F]

/-- `std::max(a, b)`: `(a < b) ? b : a`. -/
def cmax (a b : F) : F := if a < b then b else a
/-- `std::min(a, b)`: `(b < a) ? b : a`. -/
def cmin (a b : F) : F := if b < a then b else a

/-- `pow(2, k)`. -/
def two_pow : Nat → F
  | 0 => 1
  | k + 1 => two_pow k * (1 + 1)

/-- `prodDims` (SgOctreePoints.h:68-71): `prodDims[n-1] = 1`, `prodDims[i] = prodDims[i+1] * 2`. -/
def prodDims (n : Nat) (i : Nat) : Nat :=
  if h : i + 1 < n then prodDims n (i + 1) * 2 else 1
termination_by n - i

/-- The members `xmins`, `xmaxs`, `nlevs`, `octree` (SgOctreePoints.h:31-44).  The map `octree` is the
list of inserted entries, key -> (low corner, high corner). -/
structure Tree (F : Type) (n : Nat) where
  xmins : Fin n → F
  xmaxs : Fin n → F
  nlevs : Nat
  octree : List (List Nat × (Fin n → F) × (Fin n → F))

/-- Domain corners (SgOctreePoints.h:57-65): running minimum and maximum of the coordinates, starting
from `big = DBL_MAX` and `-big`.  The points are the rows of `ndims` numbers of the flat array
(a trailing incomplete row, which the code would also take into account, is not represented). -/
def bounds {n : Nat} (big : F) (points : List (Fin n → F)) : (Fin n → F) × (Fin n → F) :=
  points.foldl (fun lohi p => (fun j => if p j < lohi.1 j then p j else lohi.1 j,
                               fun j => if lohi.2 j < p j then p j else lohi.2 j))
    (fun _ => big, fun _ => -big)

/-- Normalised coordinate (SgOctreePoints.h:128-133). -/
def normalise {n : Nat} (xmins xmaxs : Fin n → F) (pt : Fin n → F) : Fin n → F := fun j =>
  let len := xmaxs j - xmins j
  cmin 1 (cmax 0 ((pt j - xmins j) / len))

/-- One digit along one axis (SgOctreePoints.h:139):
`(size_t) min(1.0, max(0.0, floor((x - xbase)*fact)))`; truncation of a value in [0,1]. -/
def axisIndex [HasFloor F] (fact x xbase : F) : Nat :=
  let w := cmin 1 (cmax 0 (HasFloor.floor ((x - xbase) * fact)))
  if w < 1 then 0 else 1

/-- The loop over levels of `getKey` (SgOctreePoints.h:134-145), from level `el` on. -/
def keyFrom [HasFloor F] [NatCast F] {n : Nat} (x : Fin n → F) : Nat → Nat → (Fin n → F) → List Nat
  | 0, _, _ => []
  | m + 1, el, xbase =>
    let fact : F := two_pow (el + 1)
    let indx : Fin n → Nat := fun j => axisIndex fact (x j) (xbase j)
    (∑ j : Fin n, prodDims n j * indx j) ::
      keyFrom x m (el + 1) (fun j => xbase j + (indx j : F) / fact)

/-- `getKey` (SgOctreePoints.h:125-146). -/
def getKey [HasFloor F] [NatCast F] {n : Nat} (xmins xmaxs : Fin n → F) (pt : Fin n → F) (lev : Nat) : List Nat :=
  keyFrom (normalise xmins xmaxs pt) lev 0 (fun _ => 0)

/-- `getIndices` (SgOctreePoints.h:205-211). -/
def getIndices (n : Nat) (indx : Nat) (j : Nat) : Nat := (indx / prodDims n j) % 2

/-- Loop over the key of `computeLoHi` (SgOctreePoints.h:181-189). -/
def loHiFrom [NatCast F] {n : Nat} : List Nat → F → (Fin n → F) → (Fin n → F) → (Fin n → F) × (Fin n → F)
  | [], _, lo, hi => (lo, hi)
  | q :: key, dx, lo, _ =>
    let lo' : Fin n → F := fun j => lo j + (getIndices n q j : F) * dx
    loHiFrom key (dx / (1 + 1)) lo' (fun j => lo' j + dx)

/-- `computeLoHi` (SgOctreePoints.h:178-198); 0.5 is `1/2`. -/
def computeLoHi [NatCast F] {n : Nat} (xmins xmaxs : Fin n → F) (key : List Nat) :
    (Fin n → F) × (Fin n → F) :=
  let r : (Fin n → F) × (Fin n → F) := loHiFrom key (1 / (1 + 1)) (fun _ => 0) (fun _ => 1)
  (fun j => r.1 j * (xmaxs j - xmins j) + xmins j, fun j => r.2 j * (xmaxs j - xmins j) + xmins j)

/-- `refineOctree` (SgOctreePoints.h:152-170): the keys inserted, in order.  `nq` is `2^ndims`. -/
def refineKeys (nq nlevs : Nat) (key : List Nat) : List (List Nat) :=
  (List.range nq).flatMap fun iQ =>
    let key2 := key ++ [iQ]
    if _h : key2.length < nlevs then key2 :: refineKeys nq nlevs key2 else [key2]
termination_by nlevs - key.length
decreasing_by
  have h1 : (key ++ [iQ]).length = key.length + 1 := by simp
  have h2 : (key ++ [iQ]).length < nlevs := _h
  show nlevs - (key ++ [iQ]).length < nlevs - key.length
  omega

/-- Tree part of the constructor (SgOctreePoints.h:73-75): refine from the empty key, each key being
inserted with its box. -/
def build [NatCast F] {n : Nat} (xmins xmaxs : Fin n → F) (nlevs : Nat) : Tree F n :=
  { xmins := xmins, xmaxs := xmaxs, nlevs := nlevs
    octree := (refineKeys (2 ^ n) nlevs []).map fun k => (k, computeLoHi xmins xmaxs k) }

/-- Constructor (SgOctreePoints.h:52-83).  `ndims = 0` divides by zero (`i % ndims`, `size / ndims`). -/
def new [NatCast F] {n : Nat} (big : F) (nlevs : Nat) (points : List (Fin n → F)) : Cxx (Tree F n) :=
  if n = 0 then .error .divByZero
  else .ok (build (bounds big points).1 (bounds big points).2 nlevs)

/-- `octree.find(key)`. -/
def Tree.find {n : Nat} (t : Tree F n) (key : List Nat) : Option ((Fin n → F) × (Fin n → F)) :=
  (t.octree.find? fun e => e.1 = key).map (·.2)

/-- `getLo` (SgOctreePoints.h:96-103). -/
def Tree.getLo {n : Nat} (t : Tree F n) (key : List Nat) : Fin n → F :=
  match t.find key with
  | some b => b.1
  | none => t.xmins

/-- `getHi` (SgOctreePoints.h:110-117). -/
def Tree.getHi {n : Nat} (t : Tree F n) (key : List Nat) : Fin n → F :=
  match t.find key with
  | some b => b.2
  | none => t.xmaxs

/-- `node2Key[i]` (SgOctreePoints.h:77-82). -/
def Tree.node2Key [HasFloor F] [NatCast F] {n : Nat} (t : Tree F n) (p : Fin n → F) : List Nat :=
  getKey t.xmins t.xmaxs p t.nlevs

end Sg.Octree
