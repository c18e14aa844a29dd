/- Specification vocabulary for sides of a box. -/
namespace Sg.Spec

/-- A side of an `n` dimensional box: one of -1 (low), 0 (middle), 1 (high) per axis. -/
def IsSide (n : Nat) (v : List Int) : Prop :=
  v.length = n ∧ ∀ x ∈ v, x = -1 ∨ x = 0 ∨ x = 1

end Sg.Spec
