import Verif.Model.FindPoint
/-
The error history of `SgFindPointInCell_type` as its callers see it (/repo/cpp/SgFindPointInCell.h:60-61, 79, 199, 246,
284-291 and the C interface SgFindPointInCell.cpp:72-76): `getErrorHistory` hands out a pointer into the vector, so the
memory block of the vector is part of the state.
-/
namespace Sg.FindPoint
open Sg.LinearSolve FOps

variable {F : Type} [Zero F] [One F] [Add F] [Sub F] [Mul F] [Div F] [Neg F] [LT F] [DecidableLT F]
  [LE F] [DecidableLE F] [DecidableEq F] [NatCast F] [IntCast F] [FOps F] {n : Nat}

/-- A finder together with the storage of `errorHistory`: its capacity and the block it lives in (blocks are numbered
in the order they are allocated). -/
structure HFinder (F : Type) (n : Nat) where
  fd : Finder F n
  cap : Nat
  block : Nat

/-- Constructor (SgFindPointInCell.h:73-80).  `reserve` takes a `size_t`: a negative count is converted to more than
`max_size()` and `reserve` throws `std::length_error` (`none`: there is no object).  The capacity is exactly `nitermax`,
the least the standard allows. -/
def HFinder.new (nitermax : Int) (tolpos : F) : Option (HFinder F n) :=
  if nitermax < 0 then none
  else some { fd := Finder.new nitermax tolpos, cap := nitermax.toNat, block := 0 }

/-- `setGrid` does not touch the history (SgFindPointInCell.h:96-146). -/
def HFinder.setGrid (s : HFinder F n) (dims : Fin n → Nat) (per : Fin n → Int) (coords : Fin n → Nat → F) : HFinder F n :=
  { s with fd := s.fd.setGrid dims per coords }

/-- `reset` (SgFindPointInCell.h:192-200): `resize(0)` keeps the block and its capacity. -/
def HFinder.reset (s : HFinder F n) (d t : Fin n → F) : HFinder F n := { s with fd := s.fd.reset d t }

/-- `next` (SgFindPointInCell.h:211-273): `push_back` (:246) moves the vector to a new block when it is full. -/
def HFinder.next (g : Gels F) (s : HFinder F n) : Cxx (Int × HFinder F n) := do
  let r ← s.fd.next g
  if r.2.errorHistory.length ≤ s.cap then return (r.1, { s with fd := r.2 })
  else return (r.1, { fd := r.2, cap := 2 * s.cap + 1, block := s.block + 1 })

/-- `getErrorHistory` (SgFindPointInCell.h:288-291): the number of entries and a pointer to the first one, here the
number of the block.  `front()` of an empty vector is undefined. -/
def HFinder.getErrorHistory (s : HFinder F n) : Cxx (Int × Nat) :=
  if s.fd.errorHistory = [] then .error .badIterator
  else .ok ((s.fd.errorHistory.length : Int), s.block)

/-- What a caller reads at `p[i]` while the object is in state `s`, for a pointer `p` handed out before: a block that
was given up by `push_back` is freed. -/
def HFinder.readHistory (s : HFinder F n) (p i : Nat) : Cxx F :=
  if p = s.block then vget s.fd.errorHistory i else .error .badPointer

/-- `getSrcDomainLo`, `getSrcDomainHi` (SgFindPointInCell.h:152-162): `front()` of an empty vector is undefined. -/
def Finder.getSrcDomain (s : Finder F n) : Cxx ((Fin n → F) × (Fin n → F)) :=
  match s.bounds with
  | none => .error .badIterator
  | some b => if n = 0 then .error .badIterator else .ok b

end Sg.FindPoint
