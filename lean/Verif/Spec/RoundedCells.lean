import Verif.Spec.RoundedQuad
import Verif.Spec.Cells
/-
Specification side: conservative interpolation in rounded arithmetic.
-/
namespace Sg.Spec

noncomputable section

/-- Error of a weight: the areas of the destination cell (exactly `A`) and of the overlap are known within `E`. -/
def weightError (u E A : ℝ) : ℝ := (1 + u) * (2 * E / (A - E)) + u

/-- Error of the computed areas of a cell of area `A` and of its overlaps, for points known within `ρ`; there are at most 36 of them. -/
def overlapError (u ρ D A : ℝ) : ℝ := areaError u 0 ρ D 36 A

/-- Error of the weights of the destination cell `d`, of size `L` at coordinates up to `R`. -/
def cellError (u β Δ L R : ℝ) (d : Fin 4 → ℝ × ℝ) : ℝ :=
  weightError u (overlapError u (crossError u β Δ L R) L (area (quadRegion d))) (area (quadRegion d))

/-- Error of an interpolated value: `v` are the values and `f` the covered fractions of the source cells, `ε` is the error of the
weights. -/
def valueError (u ε : ℝ) (n : Nat) (f v : Nat → ℝ) : ℝ :=
  dotError u 0 n (∑ j ∈ Finset.range n, (f j + ε) * |v j|) + ε * ∑ j ∈ Finset.range n, |v j|

/-- The real numbers in a list. -/
def flVals {rnd : ℝ → ℝ} (l : List (Fl rnd)) : List ℝ := l.map Fl.val

/-- The boxes around the two quadrilaterals have no point in common. -/
def BoxesApart (d s : Fin 4 → ℝ × ℝ) : Prop :=
  (∀ i j, (d i).1 < (s j).1) ∨ (∀ i j, (s j).1 < (d i).1) ∨ (∀ i j, (d i).2 < (s j).2) ∨ (∀ i j, (s j).2 < (d i).2)

/-- Two cells for which rounding does not change any decision, the first of them of size `L` at coordinates up to `R`, and with an area
above the error of computed areas. -/
structure SafeCells (u β Δ L R : ℝ) (d s : Fin 4 → ℝ × ℝ) : Prop where
  safe : SafePair Δ d s
  sized : SizedBy L R d
  dstPoints : TolClean2 (Set.range d)
  points : TolClean2 (cornerPoints d s)
  big : overlapError u (crossError u β Δ L R) L (area (quadRegion d)) < area (quadRegion d)

end

end Sg.Spec
