import Verif.Model.Cxx
/-
Model of `SgBoxIterator_type` (/repo/cpp/SgBoxIterator.h) and its C interface
(/repo/cpp/SgBoxIterator.cpp, which only forwards).
The two input arrays `begInds`, `endInds` of length `ndims` are given as one list of pairs.
-/
namespace Sg.BoxIterator

/-- Members of `SgBoxIterator_type` (SgBoxIterator.h:14-24). -/
structure Box where
  lowEnd : List Int
  dims : List Int
  dimProd : List Int
  numElems : Int
  deriving DecidableEq, Repr

/-- First loop of the constructor (SgBoxIterator.h:38-43), the `dims` part:
`dims[i] = endInds[i] - begInds[i]`. -/
def mkDims : List (Int × Int) → Cxx (List Int)
  | [] => .ok []
  | (b, e) :: axes => do
    let d ← isub e b
    let ds ← mkDims axes
    return d :: ds

/-- First loop of the constructor (SgBoxIterator.h:37,42): `numElems *= dims[i]`, in increasing `i`.
Simplification: the loop is split in a `dims` part and a `numElems` part; both are evaluated. -/
def mkNumElems (acc : Int) : List Int → Cxx Int
  | [] => .ok acc
  | d :: ds => do
    let a ← imul acc d
    mkNumElems a ds

/-- Second loop of the constructor (SgBoxIterator.h:41,45-48):
`dimProd[ndims-1] = 1`, `dimProd[i] = dimProd[i+1] * dims[i+1]` for decreasing `i`. -/
def mkDimProd : List Int → Cxx (List Int)
  | [] => .ok []
  | [_] => .ok [1]
  | _ :: d1 :: ds => do
    let ps ← mkDimProd (d1 :: ds)
    let p1 ← vget ps 0
    let p ← imul p1 d1
    return p :: ps

/-- Constructor (SgBoxIterator.h:32-49). -/
def new (axes : List (Int × Int)) : Cxx Box := do
  let dims ← mkDims axes
  let num ← mkNumElems 1 dims
  let ps ← mkDimProd dims
  return { lowEnd := axes.map (·.1), dims := dims, dimProd := ps, numElems := num }

/-- `getNumberOfElements` (SgBoxIterator.h:60-62). -/
def Box.getNumberOfElements (b : Box) : Int := b.numElems

/-- Loop of `getElement` (SgBoxIterator.h:70-73):
`inds[i] = lowEnd[i] + index / dimProd[i] % dims[i]`. -/
def getElementLoop (index : Int) : List Int → List Int → List Int → Cxx (List Int)
  | l :: ls, d :: ds, p :: ps => do
    let q ← idiv index p
    let r ← imod q d
    let x ← iadd l r
    let xs ← getElementLoop index ls ds ps
    return x :: xs
  | _, _, _ => .ok []

/-- `getElement` (SgBoxIterator.h:69-74). -/
def Box.getElement (b : Box) (index : Int) : Cxx (List Int) :=
  getElementLoop index b.lowEnd b.dims b.dimProd

/-- Loop of `getIndex` (SgBoxIterator.h:82-85): `index += (inds[i] - lowEnd[i]) * dimProd[i]`.
Reading past the end of the caller's `inds` is out of bounds. -/
def getIndexLoop (acc : Int) : List Int → List Int → List Int → Cxx Int
  | l :: ls, p :: ps, x :: xs => do
    let k ← isub x l
    let t ← imul k p
    let a ← iadd acc t
    getIndexLoop a ls ps xs
  | _ :: _, _ :: _, [] => .error .outOfBounds
  | _, _, _ => .ok acc

/-- `getIndex` (SgBoxIterator.h:81-87). -/
def Box.getIndex (b : Box) (inds : List Int) : Cxx Int :=
  getIndexLoop 0 b.lowEnd b.dimProd inds

end Sg.BoxIterator
