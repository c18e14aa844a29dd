import Verif.Model.BoxIterator
import Verif.Model.FindPointRaw
/-
Model of `SgBoxIterator_type` (/repo/cpp/SgBoxIterator.h) as it is called through the C interface (/repo/cpp/SgBoxIterator.cpp): any
`int` number of axes, vectors filled by loops, index sets in memory of the caller.  `Model/BoxIterator` has the same functions on lists.
-/
namespace Sg.BoxIterator
open Sg.FindPoint

/-- One round of the first loop of the constructor (SgBoxIterator.h:38-43). -/
def fillRound (beg end' : List Int) (i : Nat) (b : Box) : Cxx Box := do
  let x ← vget beg i
  let lowEnd ← vset b.lowEnd i x
  let e ← vget end' i
  let x ← vget beg i
  let d ← isub e x
  let dims ← vset b.dims i d
  let dimProd ← vset b.dimProd i 1
  let d ← vget dims i
  let num ← imul b.numElems d
  return { lowEnd, dims, dimProd, numElems := num }

/-- One round of the second loop (SgBoxIterator.h:45-48). -/
def prodRound (i : Nat) (b : Box) : Cxx Box := do
  let p ← vget b.dimProd (i + 1)
  let d ← vget b.dims (i + 1)
  let q ← imul p d
  let dimProd ← vset b.dimProd i q
  return { b with dimProd }

/-- Constructor (SgBoxIterator.h:32-49) and `SgBoxIterator_new` (SgBoxIterator.cpp:8-14); `beg` and `end'` are the memory behind the
pointers.  The second loop runs downwards from `ndims - 2`, an `int`. -/
def newRaw (ndims : Int) (beg end' : List Int) : Call' Box := do
  let lowEnd ← resize [] (toSize ndims) 0
  let dims ← resize [] (toSize ndims) 0
  let dimProd ← resize [] (toSize ndims) 0
  lift' (do
    let b ← forN ndims.toNat { lowEnd, dims, dimProd, numElems := 1 } (fillRound beg end')
    forN (ndims - 1).toNat b fun k b => prodRound ((ndims - 1).toNat - 1 - k) b)

/-- `getElement` (SgBoxIterator.h:69-74, SgBoxIterator.cpp:29-35): the memory behind `inds` after the call. -/
def Box.getElementRaw (b : Box) (index : Int) (inds : List Int) : Cxx (List Int) :=
  forN b.dims.length inds fun i inds => do
    let l ← vget b.lowEnd i
    let p ← vget b.dimProd i
    let q ← idiv index p
    let d ← vget b.dims i
    let r ← imod q d
    let x ← iadd l r
    vset inds i x

/-- `getIndex` (SgBoxIterator.h:81-87, SgBoxIterator.cpp:37-42). -/
def Box.getIndexRaw (b : Box) (inds : List Int) : Cxx Int :=
  forN b.dims.length 0 fun i index => do
    let x ← vget inds i
    let l ← vget b.lowEnd i
    let k ← isub x l
    let p ← vget b.dimProd i
    let t ← imul k p
    iadd index t

end Sg.BoxIterator
