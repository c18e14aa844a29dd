import Verif.Spec.Rounded
/-
Specification side: data with opposite signs, and roundings that treat both signs alike.
-/
namespace Sg.Spec
noncomputable section
variable {rnd : ℝ → ℝ}

/-- Opposite numbers are rounded to opposite numbers, as in all rounding modes of IEEE 754 but those up and down. -/
def BothSigns (rnd : ℝ → ℝ) : Prop := ∀ x, rnd (-x) = -rnd x

/-- An array with opposite signs. -/
def opposite (l : List (Fl rnd)) : List (Fl rnd) := l.map fun a => ⟨-a.val⟩

/-- Nearest integer, halves to the even neighbour. -/
def roundEven (y : ℝ) : ℤ :=
  if Int.fract y < 1 / 2 then ⌊y⌋ else if 1 / 2 < Int.fract y then ⌊y⌋ + 1 else if Even ⌊y⌋ then ⌊y⌋ else ⌊y⌋ + 1

/-- Rounding to the nearest number with `p` binary digits, halves to the even neighbour, with no smallest exponent. -/
def nearestEven (p : Nat) (x : ℝ) : ℝ := (roundEven (x / ulp p x) : ℝ) * ulp p x

end

end Sg.Spec
