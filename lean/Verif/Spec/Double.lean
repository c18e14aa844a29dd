import Verif.Model.FindPoint
import Mathlib.Data.Rat.Floor
/-
Specification side: a computable double precision arithmetic.  `Dbl` are rational numbers on which every operation is the exact one
followed by rounding to 53 binary digits, ties to even, as IEEE 754 prescribes for `double`.  There is no smallest or greatest exponent,
and infinities, NaN and the sign of zero are not represented (a division by zero gives zero).
-/
namespace Sg.Spec
open Sg.FindPoint

/-- Numbers in double precision. -/
@[ext] structure Dbl where
  q : ℚ
deriving DecidableEq

/-- Powers of two. -/
def pow2 (e : ℤ) : ℚ := if 0 ≤ e then ((2 ^ e.toNat : ℕ) : ℚ) else 1 / ((2 ^ (-e).toNat : ℕ) : ℚ)

/-- The greatest `e` with `2^e ≤ x`, for `x > 0`. -/
def log2q (x : ℚ) : ℤ :=
  let e : ℤ := (x.num.natAbs.log2 : ℤ) - (x.den.log2 : ℤ)
  if pow2 e ≤ x then e else e - 1

/-- The nearest integer, ties to even. -/
def rneInt (y : ℚ) : ℤ :=
  let f := y.floor
  if y - f < 1 / 2 then f else if 1 / 2 < y - f then f + 1 else if f % 2 = 0 then f else f + 1

/-- The nearest number with 53 binary digits, ties to even. -/
def rne (x : ℚ) : ℚ :=
  if x = 0 then 0 else
    let s := pow2 (log2q |x| - 52)
    rneInt (x / s) * s

/-- The greatest integer of which the square is `n` at most, with `k` bits to go. -/
def isqrt (n : ℕ) : ℕ → ℕ → ℕ
  | 0, r => r
  | k + 1, r => isqrt n k (if (r + 2 ^ k) * (r + 2 ^ k) ≤ n then r + 2 ^ k else r)

/-- The square root, rounded: integer square root with at least 54 digits, a half standing for the rest. -/
def sqrtDbl (x : ℚ) : ℚ :=
  if x ≤ 0 then 0 else
    let k : ℤ := 55 - log2q x / 2
    let y := x * pow2 (2 * k)
    let n := y.floor.toNat
    let r := isqrt n (n.log2 / 2 + 1) 0
    rne ((if (r : ℚ) * r = y then (r : ℚ) else r + 1 / 2) / pow2 k)

instance : Zero Dbl := ⟨⟨0⟩⟩
instance : One Dbl := ⟨⟨1⟩⟩
instance : Add Dbl := ⟨fun a b => ⟨rne (a.q + b.q)⟩⟩
instance : Sub Dbl := ⟨fun a b => ⟨rne (a.q - b.q)⟩⟩
instance : Mul Dbl := ⟨fun a b => ⟨rne (a.q * b.q)⟩⟩
instance : Div Dbl := ⟨fun a b => ⟨rne (a.q / b.q)⟩⟩
instance : Neg Dbl := ⟨fun a => ⟨-a.q⟩⟩
instance : LT Dbl := ⟨fun a b => a.q < b.q⟩
instance : LE Dbl := ⟨fun a b => a.q ≤ b.q⟩
instance : DecidableLT Dbl := fun a b => inferInstanceAs (Decidable (a.q < b.q))
instance : DecidableLE Dbl := fun a b => inferInstanceAs (Decidable (a.q ≤ b.q))
instance : NatCast Dbl := ⟨fun n => ⟨rne n⟩⟩
instance : IntCast Dbl := ⟨fun n => ⟨rne n⟩⟩

/-- The remainder of a division with a quotient that is rounded to zero (`fmod`, exact in floating point). -/
def fmodDbl (x p : ℚ) : ℚ := let t := x / p; x - (if 0 ≤ t then t.floor else -(-t).floor) * p

instance : FOps Dbl where
  floorI x := if inI32 x.q.floor then some x.q.floor else none
  sqrt x := ⟨sqrtDbl x.q⟩
  fmod x p := ⟨fmodDbl x.q p.q⟩
  big := ⟨2 ^ 1024 - 2 ^ 971⟩
  eps100 := ⟨100 / 2 ^ 52⟩

end Sg.Spec
