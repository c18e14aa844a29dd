import Mathlib.Algebra.Order.Field.Basic
import Mathlib.Tactic.Linarith
/-
Numbers with infinities and NaN, with the rules of IEEE 754 for them: what the double type of C++ does at a division by zero.  Finite
numbers are the elements of an ordered field `K`, with no rounding and no overflow, so that the only sources of infinities and NaN are
the divisions by zero.  The sign of zero is not represented, zero counts as positive zero: a difference of equal numbers is positive
zero in the default rounding.
-/
namespace Sg

/-- A number, an infinity (negative if the flag is set) or NaN. -/
inductive Ieee (K : Type) where
  | nan
  | inf (neg : Bool)
  | fin (x : K)
  deriving DecidableEq

namespace Ieee
variable {K : Type} [Field K] [LinearOrder K]

/-- Sum: opposite infinities give NaN. -/
def add : Ieee K → Ieee K → Ieee K
  | nan, _ => nan
  | _, nan => nan
  | inf s, inf t => if s = t then inf s else nan
  | inf s, fin _ => inf s
  | fin _, inf t => inf t
  | fin x, fin y => fin (x + y)

/-- Opposite. -/
def neg : Ieee K → Ieee K
  | nan => nan
  | inf s => inf (!s)
  | fin x => fin (-x)

/-- An infinity times a number. -/
def infMul (s : Bool) (x : K) : Ieee K := if x = 0 then nan else inf (s != decide (x < 0))

/-- Product: zero times an infinity is NaN. -/
def mul : Ieee K → Ieee K → Ieee K
  | nan, _ => nan
  | _, nan => nan
  | inf s, inf t => inf (s != t)
  | inf s, fin x => infMul s x
  | fin x, inf s => infMul s x
  | fin x, fin y => fin (x * y)

/-- Quotient: zero by zero and infinity by infinity are NaN, another number by zero is an infinity. -/
def div : Ieee K → Ieee K → Ieee K
  | nan, _ => nan
  | _, nan => nan
  | inf _, inf _ => nan
  | inf s, fin y => inf (s != decide (y < 0))
  | fin _, inf _ => fin 0
  | fin x, fin y => if y = 0 then (if x = 0 then nan else inf (decide (x < 0))) else fin (x / y)

/-- Order: NaN is neither less nor greater than anything. -/
def lt : Ieee K → Ieee K → Prop
  | nan, _ => False
  | _, nan => False
  | inf s, inf t => s = true ∧ t = false
  | inf s, fin _ => s = true
  | fin _, inf t => t = false
  | fin x, fin y => x < y

/-- Order or equality. -/
def le : Ieee K → Ieee K → Prop
  | nan, _ => False
  | _, nan => False
  | inf s, inf t => s = true ∨ t = false
  | inf s, fin _ => s = true
  | fin _, inf t => t = false
  | fin x, fin y => x ≤ y

instance : Zero (Ieee K) := ⟨fin 0⟩
instance : One (Ieee K) := ⟨fin 1⟩
instance : Add (Ieee K) := ⟨add⟩
instance : Neg (Ieee K) := ⟨neg⟩
instance : Sub (Ieee K) := ⟨fun a b => add a (neg b)⟩
instance : Mul (Ieee K) := ⟨mul⟩
instance : Div (Ieee K) := ⟨div⟩
instance : LT (Ieee K) := ⟨lt⟩
instance : LE (Ieee K) := ⟨le⟩
instance : NatCast (Ieee K) := ⟨fun n => fin n⟩
instance : IntCast (Ieee K) := ⟨fun n => fin n⟩
instance : DecidableLT (Ieee K) := fun a b => by
  show Decidable (lt a b)
  cases a <;> cases b <;> unfold lt <;> infer_instance
instance : DecidableLE (Ieee K) := fun a b => by
  show Decidable (le a b)
  cases a <;> cases b <;> unfold le <;> infer_instance

theorem fin_add (x y : K) : (fin x + fin y : Ieee K) = fin (x + y) := rfl
theorem fin_sub (x y : K) : (fin x - fin y : Ieee K) = fin (x - y) := by
  show fin (x + -y) = fin (x - y)
  rw [sub_eq_add_neg]
theorem fin_mul (x y : K) : (fin x * fin y : Ieee K) = fin (x * y) := rfl
theorem fin_neg (x : K) : (-fin x : Ieee K) = fin (-x) := rfl
theorem fin_div (x y : K) (h : y ≠ 0) : (fin x / fin y : Ieee K) = fin (x / y) := by
  show (if y = 0 then _ else _) = _
  rw [if_neg h]
theorem fin_zero : (0 : Ieee K) = fin 0 := rfl
theorem fin_one : (1 : Ieee K) = fin 1 := rfl
theorem fin_nat (n : Nat) : ((n : Ieee K)) = fin (n : K) := rfl
theorem fin_int (n : Int) : ((n : Ieee K)) = fin (n : K) := rfl
theorem fin_lt (x y : K) : (fin x < fin y : Prop) ↔ x < y := Iff.rfl
theorem fin_le (x y : K) : (fin x ≤ fin y : Prop) ↔ x ≤ y := Iff.rfl

theorem nan_add (a : Ieee K) : nan + a = nan := by cases a <;> rfl
theorem add_nan (a : Ieee K) : a + nan = nan := by cases a <;> rfl
theorem nan_sub (a : Ieee K) : nan - a = nan := by cases a <;> rfl
theorem sub_nan (a : Ieee K) : a - nan = nan := by cases a <;> rfl
theorem nan_mul (a : Ieee K) : nan * a = nan := by cases a <;> rfl
theorem mul_nan (a : Ieee K) : a * nan = nan := by cases a <;> rfl
theorem nan_div (a : Ieee K) : nan / a = nan := by cases a <;> rfl
theorem div_nan (a : Ieee K) : a / nan = nan := by cases a <;> rfl
theorem not_lt_nan (a : Ieee K) : ¬ a < nan := by cases a <;> exact id
theorem not_nan_lt (a : Ieee K) : ¬ nan < a := by cases a <;> exact id

/-- A number by zero, times zero, is NaN. -/
theorem div_zero_mul_zero (x : K) : (fin x / fin 0 * fin 0 : Ieee K) = nan := by
  show mul (if (0 : K) = 0 then _ else _) (fin 0) = nan
  rw [if_pos rfl]
  split
  · rfl
  · show infMul _ 0 = nan
    unfold infMul
    rw [if_pos rfl]

theorem zero_div_zero : (fin (0 : K) / fin 0 : Ieee K) = nan := by
  show (if (0 : K) = 0 then (if (0 : K) = 0 then _ else _) else _) = nan
  rw [if_pos rfl, if_pos rfl]

theorem pos_div_zero (x : K) (h : 0 < x) : (fin x / fin 0 : Ieee K) = inf false := by
  show (if (0 : K) = 0 then (if x = 0 then _ else _) else _) = _
  rw [if_pos rfl, if_neg h.ne', decide_eq_false (not_lt.mpr h.le)]

theorem neg_div_zero (x : K) (h : x < 0) : (fin x / fin 0 : Ieee K) = inf true := by
  show (if (0 : K) = 0 then (if x = 0 then _ else _) else _) = _
  rw [if_pos rfl, if_neg h.ne, decide_eq_true h]

end Ieee
end Sg
