import Verif.Spec.Quad
import Mathlib.MeasureTheory.Measure.Lebesgue.Basic
import Mathlib.MeasureTheory.Measure.Prod
/-
Vocabulary of the statements about conservative interpolation.
-/
namespace Sg.Spec
open MeasureTheory

/-- A structured grid with `dims.1` times `dims.2` nodes, the second index varying fastest, has this number of cells. -/
def cellCount (dims : Nat × Nat) : Nat := (dims.1 - 1) * (dims.2 - 1)

/-- The node `(a, b)` of a grid. -/
def gridNode {F : Type} [Zero F] (dims : Nat × Nat) (x y : List F) (a b : Nat) : F × F :=
  (x.getD (a * dims.2 + b) 0, y.getD (a * dims.2 + b) 0)

/-- The corners of the cell with low corner `(a, b)`, in order around the cell. -/
def gridCellAt {F : Type} [Zero F] (dims : Nat × Nat) (x y : List F) (a b : Nat) : Fin 4 → F × F := fun k =>
  match k with
  | 0 => gridNode dims x y a b
  | 1 => gridNode dims x y (a + 1) b
  | 2 => gridNode dims x y (a + 1) (b + 1)
  | 3 => gridNode dims x y a (b + 1)

/-- The corners of cell number `i`; cells are numbered like nodes, the second index varying fastest. -/
def gridCell {F : Type} [Zero F] (dims : Nat × Nat) (x y : List F) (i : Nat) : Fin 4 → F × F :=
  gridCellAt dims x y (i / (dims.2 - 1)) (i % (dims.2 - 1))

/-- Two convex cells about which no decision is closer than the tolerance. -/
structure CleanCells (d s : Fin 4 → ℝ × ℝ) : Prop where
  dst : ConvexQuad d
  src : ConvexQuad s
  clear : ClearPair d s
  dstPoints : TolClean (Set.range d)
  points : TolClean (cornerPoints d s)

/-- Area in the plane. -/
noncomputable def area (s : Set (ℝ × ℝ)) : ℝ := (volume s).toReal

/-- The part of `d` covered by `s`. -/
noncomputable def overlapFraction (d s : Fin 4 → ℝ × ℝ) : ℝ := area (quadRegion d ∩ quadRegion s) / area (quadRegion d)

/-- The weight stored in a table for a destination and a source cell, 0 if there is none. -/
def weightOf {F : Type} [Zero F] (t : List (Nat × List (Nat × F))) (i j : Nat) : F := (((t.lookup i).getD []).lookup j).getD 0

/-- The sum of weight times value over the entries of a list, from left to right. -/
def weightedSum {F : Type} [Zero F] [Add F] [Mul F] (value : Nat → F) (l : List (Nat × F)) : F :=
  l.foldl (fun acc p => acc + p.2 * value p.1) 0

/-- The (destination, source, weight) triples of a table, in the order of the table. -/
def triples {F : Type} (t : List (Nat × List (Nat × F))) : List (Nat × Nat × F) :=
  t.flatMap fun e => e.2.map fun p => (e.1, p.1, p.2)

end Sg.Spec
