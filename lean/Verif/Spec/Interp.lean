import Verif.Model.FindPoint
import Mathlib.Algebra.Order.Floor.Ring
import Mathlib.Algebra.Order.Floor.Semiring
import Mathlib.Algebra.Order.Field.Basic
/-
Specification side of the interpolation properties: row-major storage, the cell holding a position, and
the laws of the floating point functions in exact arithmetic.
-/
namespace Sg.Spec
open Sg.FindPoint

/-- Position of node `m` in a row-major array of shape `dims` (last axis fastest). -/
def rowMajor {n : Nat} (dims m : Fin n → Nat) : Nat := ∑ i, m i * ∏ k ∈ Finset.univ.filter (i < ·), dims k

/-- Laws of the `<cmath>` functions in exact arithmetic. -/
class FOpsLaws (K : Type) [Field K] [LinearOrder K] [IsStrictOrderedRing K] [FloorRing K] [FOps K] : Prop where
  floorI : ∀ x : K, inI32 ⌊x⌋ → FOps.floorI x = some ⌊x⌋
  sqrt_zero : FOps.sqrt (0 : K) = 0
  sqrt_pos : ∀ x : K, 0 < x → 0 < FOps.sqrt x
  fmod_bound : ∀ x p : K, 0 < p → -p < FOps.fmod x p ∧ FOps.fmod x p < p
  fmod_nonneg : ∀ x p : K, 0 < p → 0 ≤ x → 0 ≤ FOps.fmod x p
  fmod_small : ∀ x p : K, 0 ≤ x → x < p → FOps.fmod x p = x
  fmod_add : ∀ x p : K, 0 ≤ x → x < p → FOps.fmod (x + p) p = x
  fmod_cong : ∀ x p : K, 0 < p → ∃ k : Int, FOps.fmod x p = x - k * p
  eps_pos : 0 < (FOps.eps100 : K)

section
variable {K : Type} [Field K] [LinearOrder K] [IsStrictOrderedRing K] [FloorRing K] {n : Nat}

/-- The position lies in the index space of a grid with `dims` nodes per axis. -/
def InGrid (dims : Fin n → Nat) (d : Fin n → K) : Prop := ∀ i, 0 ≤ d i ∧ d i ≤ (dims i : K) - 1

/-- Low corner of the cell holding the position; on the upper boundary, of the last cell. -/
def cellLo (dims : Fin n → Nat) (d : Fin n → K) : Fin n → Nat := fun i => min ⌊d i⌋.toNat (dims i - 2)

/-- The node is a corner of the cell holding the position. -/
def IsCorner (dims : Fin n → Nat) (d : Fin n → K) (m : Fin n → Nat) : Prop :=
  ∀ i, m i = cellLo dims d i ∨ m i = cellLo dims d i + 1

/-- A usable grid shape: two nodes at least per axis, counts that fit an `int`. -/
def GoodDims (dims : Fin n → Nat) : Prop := ∀ i, 2 ≤ dims i ∧ dims i ≤ 2147483647

end
end Sg.Spec
