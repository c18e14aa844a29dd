import Verif.Proof.Double
import Verif.Props.FlowInterp
import Mathlib.Data.List.Sort
/-
Property C115, refutation: the flow interpolator in double precision.
-/
namespace Sg.Props
open Sg Sg.Spec Sg.FindPoint Sg.LinearSolve Sg.FlowInterp Sg.Witness

/-- Two equations solved exactly, the solution being rounded; for a matrix that is singular and not zero a positive code. -/
def dblGels : Gels Dbl := fun r =>
  let a0 := (r.a.getD 0 0).q
  let a1 := (r.a.getD 1 0).q
  let a2 := (r.a.getD 2 0).q
  let a3 := (r.a.getD 3 0).q
  let b0 := (r.b.getD 0 0).q
  let b1 := (r.b.getD 1 0).q
  let det := a0 * a3 - a1 * a2
  if a0 = 0 ∧ a1 = 0 ∧ a2 = 0 ∧ a3 = 0 then { a := r.a, b := [0, 0], info := 0 }
  else if det = 0 then { a := r.a, b := r.b, info := 1 }
  else { a := r.a, b := [⟨rne ((a3 * b0 - a1 * b1) / det)⟩, ⟨rne ((a0 * b1 - a2 * b0) / det)⟩], info := 0 }

/-- Sorting numbers. -/
def dblSort (l : List Dbl) : List Dbl := l.insertionSort (· ≤ ·)

/-- Integers as numbers in double precision. -/
def dz (z : ℤ) : Dbl := ⟨z⟩

/-- The flow through a polyline for data on the edges of a grid. -/
def flowOf {F : Type} [Zero F] [One F] [Add F] [Sub F] [Mul F] [Div F] [Neg F] [LT F] [DecidableLT F] [LE F] [DecidableLE F]
    [DecidableEq F] [NatCast F] [IntCast F] [FOps F] (pert : Nat → Nat → Nat → F) (g : Gels F) (srt : List F → List F) (n : Nat)
    (us vs : List F) (dims : Nat × Nat) (xs ys dx dy : List F) : Cxx (List F) := do
  let o ← (Flow.new : Flow F).setDstGrid pert n us vs
  let o ← o.setSrcGrid dims xs ys
  let o ← o.computeWeights g srt
  o.apply dx dy (List.replicate (n - 1) 0)

/-- The line from (80, 500) to (3792, 600), on a grid of two cells with nodes at 0, 2000, 4000 along the first axis and 0, 1000 along the second one; the
data are 2000 on the edges along the first axis, and 0 on the others: the flow of the uniform field (1, 0), that is, the length of the line along the
first axis. -/
def lineFlow {F : Type} [Zero F] [One F] [Add F] [Sub F] [Mul F] [Div F] [Neg F] [LT F] [DecidableLT F] [LE F] [DecidableLE F]
    [DecidableEq F] [NatCast F] [IntCast F] [FOps F] (z : ℤ → F) (pert : Nat → Nat → Nat → F) (g : Gels F) (srt : List F → List F) : Cxx (List F) :=
  flowOf pert g srt 2 [z 80, z 3792] [z 500, z 600] (3, 2) [z 0, z 0, z 2000, z 2000, z 4000, z 4000] [z 0, z 1000, z 0, z 1000, z 0, z 1000]
    [z 2000, z 2000, z 2000, z 2000] [z 0, z 0, z 0]

theorem lineFlow_zero : lineFlow dz (fun _ _ _ => 0) dblGels dblSort = .ok [dz 2712] := by decide +kernel

/-- A perturbation of the size used by the program does not change coordinates like these. -/
theorem dz_add (z m e : ℤ) (p : Dbl) (hp : |p.q| ≤ 20 / 2 ^ 52) (h1 : (2 : ℚ) ^ (e + 52) + 20 / 2 ^ 52 ≤ z) (h2 : (z : ℚ) + 20 / 2 ^ 52 < 2 ^ (e + 53))
    (hz : (z : ℚ) = m * 2 ^ e) (he : (20 : ℚ) / 2 ^ 52 < 2 ^ e / 2) : dz z + p = dz z := by
  have hp' := abs_le.mp hp
  have hpos : (0 : ℚ) < 2 ^ (e + 52) := zpow_pos two_pos _
  have hx : 0 < (z : ℚ) + p.q := by linarith [hp'.1]
  show (⟨rne ((z : ℚ) + p.q)⟩ : Dbl) = ⟨z⟩
  congr 1
  rw [hz]
  rw [rne_eq (m := m) (e := e)]
  · rw [← hz, abs_of_pos hx]; linarith [hp'.1]
  · rw [← hz, abs_of_pos hx]; linarith [hp'.2]
  · rw [add_sub_cancel_left]; exact lt_of_le_of_lt hp he

/-- **C115**, refutation for the flow interpolator: in double precision, with a solver that returns the exact solution rounded, and whatever the
perturbations of the nodes of the line of the size used by the program, the flow of a uniform field through a line is 2712, while it is 3712.  The length of the
line in the first cell is counted as 1000 less, because the point where it leaves the cell is taken to be outside of it: it is off by one unit in the last
place, which is more than the absolute tolerance of the test. -/
theorem C115_flow_refuted (pert : Nat → Nat → Nat → Dbl) (hp : ∀ n k i, |(pert n k i).q| ≤ 20 / 2 ^ 52) :
    lineFlow dz pert dblGels dblSort = .ok [dz 2712] := by
  have e1 : dz 80 + pert 2 0 0 = dz 80 := dz_add 80 (80 * 2 ^ 46) (-46) _ (hp _ _ _) (by norm_num) (by norm_num) (by norm_num) (by norm_num)
  have e2 : dz 3792 + pert 2 0 1 = dz 3792 := dz_add 3792 (3792 * 2 ^ 41) (-41) _ (hp _ _ _) (by norm_num) (by norm_num) (by norm_num) (by norm_num)
  have e3 : dz 500 + pert 2 1 0 = dz 500 := dz_add 500 (500 * 2 ^ 44) (-44) _ (hp _ _ _) (by norm_num) (by norm_num) (by norm_num) (by norm_num)
  have e4 : dz 600 + pert 2 1 1 = dz 600 := dz_add 600 (600 * 2 ^ 43) (-43) _ (hp _ _ _) (by norm_num) (by norm_num) (by norm_num) (by norm_num)
  have z : |((0 : Dbl)).q| ≤ 20 / 2 ^ 52 := by show |(0 : ℚ)| ≤ _; norm_num
  have f1 : dz 80 + 0 = dz 80 := dz_add 80 (80 * 2 ^ 46) (-46) _ z (by norm_num) (by norm_num) (by norm_num) (by norm_num)
  have f2 : dz 3792 + 0 = dz 3792 := dz_add 3792 (3792 * 2 ^ 41) (-41) _ z (by norm_num) (by norm_num) (by norm_num) (by norm_num)
  have f3 : dz 500 + 0 = dz 500 := dz_add 500 (500 * 2 ^ 44) (-44) _ z (by norm_num) (by norm_num) (by norm_num) (by norm_num)
  have f4 : dz 600 + 0 = dz 600 := dz_add 600 (600 * 2 ^ 43) (-43) _ z (by norm_num) (by norm_num) (by norm_num) (by norm_num)
  have hset : ∀ pt : Nat → Nat → Nat → Dbl, (Flow.new : Flow Dbl).setDstGrid pt 2 [dz 80, dz 3792] [dz 500, dz 600] =
      .ok { Flow.new with dst := some { coords := [dz 80 + pt 2 0 0, dz 500 + pt 2 1 0, dz 3792 + pt 2 0 1, dz 600 + pt 2 1 1], numCells := 1 } } := fun pt => rfl
  rw [← lineFlow_zero]
  unfold lineFlow flowOf
  rw [hset, hset, e1, e2, e3, e4, f1, f2, f3, f4]

/-- In exact arithmetic the flow of the example is 3712. -/
example : lineFlow (F := ℚ) (fun z : ℤ => (z : ℚ)) (fun _ _ _ => 0) cramerGels sortReal = .ok [(3712 : ℚ)] := by decide +kernel

end Sg.Props
