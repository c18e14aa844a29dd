import Verif.Model.FindPoint
import Mathlib.Data.Real.Basic
import Mathlib.Data.Int.Log
import Mathlib.Analysis.SpecialFunctions.Sqrt
/-
Specification side: rounded arithmetic.  `Fl rnd` are real numbers on which every operation is the exact one followed by the
rounding `rnd`; infinities and NaN are not represented.
-/
namespace Sg.Spec
open Sg.FindPoint

/-- Numbers of a rounded arithmetic. -/
@[ext] structure Fl (rnd : ℝ → ℝ) where
  val : ℝ

variable {rnd : ℝ → ℝ}

noncomputable section
instance : Zero (Fl rnd) := ⟨⟨0⟩⟩
instance : One (Fl rnd) := ⟨⟨1⟩⟩
instance : Add (Fl rnd) := ⟨fun a b => ⟨rnd (a.val + b.val)⟩⟩
instance : Sub (Fl rnd) := ⟨fun a b => ⟨rnd (a.val - b.val)⟩⟩
instance : Mul (Fl rnd) := ⟨fun a b => ⟨rnd (a.val * b.val)⟩⟩
instance : Div (Fl rnd) := ⟨fun a b => ⟨rnd (a.val / b.val)⟩⟩
instance : Neg (Fl rnd) := ⟨fun a => ⟨-a.val⟩⟩
instance : LT (Fl rnd) := ⟨fun a b => a.val < b.val⟩
instance : LE (Fl rnd) := ⟨fun a b => a.val ≤ b.val⟩
instance : DecidableLT (Fl rnd) := fun a b => Classical.propDecidable (a < b)
instance : DecidableLE (Fl rnd) := fun a b => Classical.propDecidable (a ≤ b)
instance : DecidableEq (Fl rnd) := Classical.decEq _
instance : NatCast (Fl rnd) := ⟨fun n => ⟨rnd n⟩⟩
instance : IntCast (Fl rnd) := ⟨fun n => ⟨rnd n⟩⟩
instance : FOps (Fl rnd) where
  floorI x := if inI32 ⌊x.val⌋ then some ⌊x.val⌋ else none
  sqrt x := ⟨rnd (Real.sqrt x.val)⟩
  fmod x p := ⟨rnd (x.val - (if 0 ≤ x.val / p.val then ⌊x.val / p.val⌋ else ⌈x.val / p.val⌉ : ℤ) * p.val)⟩
  big := ⟨rnd (2 ^ 1024 - 2 ^ 971)⟩
  eps100 := ⟨rnd (100 / 2 ^ 52)⟩

theorem Fl.zero_val : (0 : Fl rnd).val = 0 := rfl
theorem Fl.add_val (a b : Fl rnd) : (a + b).val = rnd (a.val + b.val) := rfl
theorem Fl.sub_val (a b : Fl rnd) : (a - b).val = rnd (a.val - b.val) := rfl
theorem Fl.mul_val (a b : Fl rnd) : (a * b).val = rnd (a.val * b.val) := rfl
theorem Fl.div_val (a b : Fl rnd) : (a / b).val = rnd (a.val / b.val) := rfl
theorem Fl.natCast_val (n : Nat) : ((n : Fl rnd)).val = rnd n := rfl
theorem Fl.intCast_val (n : Int) : ((n : Fl rnd)).val = rnd n := rfl

/-- A vector as real numbers. -/
def vals {n : Nat} (d : Fin n → Fl rnd) : Fin n → ℝ := fun i => (d i).val

/-- Rounding has relative error at most `u`, plus at most `η` (the result may be too small for the relative error). -/
structure Rounds (rnd : ℝ → ℝ) (u η : ℝ) : Prop where
  rel : 0 ≤ u
  abs : 0 ≤ η
  err : ∀ x, |rnd x - x| ≤ u * |x| + η

/-- The rounding keeps the order, and leaves alone the powers of two up to `2^L` and the multiples of `1/2^L` in `[0, 1]`. -/
structure KeepsDyadics (rnd : ℝ → ℝ) (L : Nat) : Prop where
  mono : Monotone rnd
  two : rnd 2 = 2
  pow : ∀ i ≤ L, rnd (2 ^ i) = 2 ^ i
  frac : ∀ i ≤ L, ∀ k : Nat, k ≤ 2 ^ i → rnd ((k : ℝ) / 2 ^ i) = k / 2 ^ i

/-- The rounding keeps the order, and leaves alone the integers up to `N`. -/
structure KeepsInts (rnd : ℝ → ℝ) (N : Nat) : Prop where
  mono : Monotone rnd
  int : ∀ k : Nat, k ≤ N → rnd (k : ℝ) = k

/-- Error of a sum of `n` products, in terms of the sum `A` of their sizes. -/
def dotError (u η : ℝ) (n : Nat) (A : ℝ) : ℝ := ((1 + u) ^ (n + 1) - 1) * A + (2 + u) * n * (1 + u) ^ n * η

/-- Distance of the numbers with `p` binary digits near `x`. -/
def ulp (p : Nat) (x : ℝ) : ℝ := 2 ^ (Int.log 2 |x| + 1 - p)

/-- Rounding to the nearest number with `p` binary digits (halves are rounded up), with no smallest exponent. -/
def nearest (p : Nat) (x : ℝ) : ℝ := (round (x / ulp p x) : ℝ) * ulp p x

end

end Sg.Spec
