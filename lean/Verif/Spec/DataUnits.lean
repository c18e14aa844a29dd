import Verif.Spec.Rounded
/-
Specification side: data in other units.
-/
namespace Sg.Spec
noncomputable section
variable {rnd : ℝ → ℝ}

/-- A number in units that are smaller by `2^k`. -/
def toUnit (k : ℤ) (a : Fl rnd) : Fl rnd := ⟨2 ^ k * a.val⟩

/-- An array in these units. -/
def inUnits (k : ℤ) (l : List (Fl rnd)) : List (Fl rnd) := l.map (toUnit k)

end

end Sg.Spec
