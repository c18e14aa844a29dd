import Verif.Model.Cxx
/-
Model of `SgSideIterator_type` (/repo/cpp/SgSideIterator.h; it has no C interface).  `size_t` arithmetic wraps modulo 2^64.
-/
namespace Sg.SideIterator

/-- `size_t` values are taken modulo 2^64. -/
def wrap (n : Nat) : Nat := n % 18446744073709551616

/-- Conversion of a `size_t` to `int` (modulo 2^32, two's complement). -/
def toInt (n : Nat) : Int :=
  if n % 4294967296 < 2147483648 then ((n % 4294967296 : Nat) : Int)
  else ((n % 4294967296 : Nat) : Int) - 4294967296

/-- Members (SgSideIterator.h:14-16). -/
structure SideIt where
  index : Nat
  numElems : Nat
  prodDims : List Nat
  deriving DecidableEq, Repr

/-- `prodDims[numDims-1] = 1; prodDims[i] = prodDims[i+1]*3` (SgSideIterator.h:23-26). -/
def mkProdDims : Nat → List Nat
  | 0 => []
  | 1 => [1]
  | n + 2 =>
    let ps := mkProdDims (n + 1)
    wrap ((ps.headD 0) * 3) :: ps

/-- `numElems *= 3` repeated `numDims` times (SgSideIterator.h:30-33). -/
def mkNumElems : Nat → Nat
  | 0 => 1
  | n + 1 => wrap (mkNumElems n * 3)

/-- Constructor (SgSideIterator.h:21-34).  With `numDims = 0` the statement
`prodDims[numDims - 1] = 1` writes outside of an empty vector. -/
def new (numDims : Nat) : Cxx SideIt :=
  if numDims = 0 then .error .outOfBounds
  else .ok { index := 0, numElems := mkNumElems numDims, prodDims := mkProdDims numDims }

/-- `getNumberOfElements` (SgSideIterator.h:45-47). -/
def SideIt.getNumberOfElements (s : SideIt) : Nat := s.numElems

/-- `reset` (SgSideIterator.h:52-54). -/
def SideIt.reset (s : SideIt) : SideIt := { s with index := 0 }

/-- `next` (SgSideIterator.h:60-66): the new state and the return code. -/
def SideIt.next (s : SideIt) : SideIt × Nat :=
  let s' := { s with index := wrap (s.index + 1) }
  (s', if s'.index < s'.numElems then 0 else 1)

/-- `get` (SgSideIterator.h:72-79): `res[i] = -1 + index / prodDims[i] % 3`.  The sum is a `size_t`
(`-1` becomes 2^64-1) converted to `int`.  `prodDims[i]` is never 0 (a power of 3 modulo 2^64);
a zero would be a division by zero. -/
def SideIt.get (s : SideIt) : Cxx (List Int) :=
  s.prodDims.mapM fun p =>
    if p = 0 then .error .divByZero
    else .ok (toInt (wrap (18446744073709551615 + s.index / p % 3)))

/-- A client loop `for (i = 0; i < m; ++i) { side = get(); ...; next(); }`
(/repo/tests/testSideIterator.cxx:14-21), collecting the sides. -/
def sweep : Nat → SideIt → Cxx (List (List Int))
  | 0, _ => .ok []
  | m + 1, s => do
    let v ← s.get
    let vs ← sweep m s.next.1
    return v :: vs

/-- A client loop relying on the return code of `next`:
`stop = 0; while (stop != 1) { side = get(); ...; stop = next(); }` (SgNodeInterp2D.h:191-200, without
the early exit); `fuel` bounds the number of rounds. -/
def visit : Nat → SideIt → Cxx (List (List Int))
  | 0, _ => .ok []
  | fuel + 1, s => do
    let v ← s.get
    let (s', code) := s.next
    if code = 0 then
      let vs ← visit fuel s'
      return v :: vs
    else
      return [v]

end Sg.SideIterator
