/-
Outcomes of C++ computations.  Undefined behaviour is an explicit outcome, so a theorem of the
form `f x = .ok v` also says that the call performs no undefined operation.
-/
namespace Sg

/-- Kinds of undefined behaviour the modelled code can run into. -/
inductive UB
  | outOfBounds      -- `v[i]` with `i ≥ v.size()` (operator[] is unchecked)
  | divByZero        -- integer `/` or `%` by zero
  | signedOverflow   -- `int` overflow
  | badIterator      -- dereference/increment of an end iterator
  | nullDeref
  | uninit           -- read of a member that was never set
  | badCast          -- conversion of a double to an int that cannot hold it
  | badPointer       -- use or `delete` of a pointer to no live object
  deriving DecidableEq, Repr

/-- Result of a C++ computation. -/
abbrev Cxx (α : Type) := Except UB α

/-- `v[i]` on a `std::vector` (unchecked in C++, out of range is undefined). -/
def vget {α : Type} (l : List α) (i : Nat) : Cxx α :=
  match l[i]? with
  | some a => .ok a
  | none => .error .outOfBounds

/-- Range of a 32-bit `int`. -/
def inI32 (x : Int) : Prop := -2147483648 ≤ x ∧ x ≤ 2147483647

instance (x : Int) : Decidable (inI32 x) := by unfold inI32; infer_instance

/-- The result of an `int` operation whose exact value is `x`. -/
def chk (x : Int) : Cxx Int := if inI32 x then .ok x else .error .signedOverflow

/-- `a + b`, `a - b`, `a * b` on `int`. -/
def iadd (a b : Int) : Cxx Int := chk (a + b)
def isub (a b : Int) : Cxx Int := chk (a - b)
def imul (a b : Int) : Cxx Int := chk (a * b)

/-- `a / b` on `int`: truncation towards zero, undefined for `b = 0` and `INT_MIN / -1`. -/
def idiv (a b : Int) : Cxx Int := if b = 0 then .error .divByZero else chk (a.tdiv b)

/-- `a % b` on `int`: sign of the dividend, undefined when `a / b` is. -/
def imod (a b : Int) : Cxx Int :=
  if b = 0 then .error .divByZero
  else if inI32 (a.tdiv b) then .ok (a.tmod b) else .error .signedOverflow

end Sg

namespace Sg

/-- `v[i] = a` on a `std::vector`. -/
def vset {α : Type} (l : List α) (i : Nat) (a : α) : Cxx (List α) :=
  if i < l.length then .ok (l.set i a) else .error .outOfBounds

/-- `for (k = start; k < start + n; ++k) s = f(k, s)`. -/
def forFrom {σ : Type} (start : Nat) : Nat → σ → (Nat → σ → Cxx σ) → Cxx σ
  | 0, s, _ => .ok s
  | n + 1, s, f =>
    match f start s with
    | .ok s' => forFrom (start + 1) n s' f
    | .error e => .error e

/-- `for (k = 0; k < n; ++k) s = f(k, s)`. -/
def forN {σ : Type} (n : Nat) (s : σ) (f : Nat → σ → Cxx σ) : Cxx σ := forFrom 0 n s f

end Sg
