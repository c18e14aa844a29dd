import Mathlib.Analysis.SpecialFunctions.Trigonometric.Basic
/-
Turns round the pole, measured on a regular polygon.
-/
namespace Sg.Spec
open Real (sin cos pi)

/-- The point at the distance `ρ` from the origin in the direction `θ`. -/
noncomputable def polarPoint (ρ θ : ℝ) : ℝ × ℝ := (ρ * cos θ, ρ * sin θ)

/-- The turns that an angle makes, measured along the chords of a regular polygon with `n` corners: the corner at the angle
`2 pi j / n` is at `j / n`, and between two corners it is the place where the ray at this angle meets the chord. -/
noncomputable def polyTurns (n : Nat) (θ : ℝ) : ℝ :=
  let δ := 2 * pi / n
  let j : ℤ := ⌊θ / δ⌋
  let ψ := θ - δ * j
  (j + sin ψ / (sin ψ + sin (δ - ψ))) / n

end Sg.Spec
