import Verif.Props.Triangulate
import Verif.Props.LinearSolve
import Mathlib.Data.List.Sort
/-
A library and a sort that meet what is assumed of them and can be run in rational arithmetic.
-/
namespace Sg.Witness
open Sg.LinearSolve Sg.Triangulate Sg.Spec Sg.Props

/-- Cramer's rule for two equations, the reference library for the rest. -/
noncomputable def cramerGels : Gels ℚ := fun r =>
  if r.m = 2 ∧ r.n = 2 ∧ r.lda = 2 ∧ r.ldb = 2 ∧ r.a.length = 4 ∧ r.b.length = 2 then
    let a0 := r.a.getD 0 0
    let a1 := r.a.getD 1 0
    let a2 := r.a.getD 2 0
    let a3 := r.a.getD 3 0
    let b0 := r.b.getD 0 0
    let b1 := r.b.getD 1 0
    let det := a0 * a3 - a1 * a2
    if a0 = 0 ∧ a1 = 0 ∧ a2 = 0 ∧ a3 = 0 then { a := r.a, b := [0, 0], info := 0 }
    else if det = 0 then { a := r.a, b := r.b, info := 1 }
    else { a := r.a, b := [(a3 * b0 - a1 * b1) / det, (a0 * b1 - a2 * b0) / det], info := 0 }
  else refGels r

theorem fortran_det2 (r : GelsArgs ℚ) (h : r.n = 2) (hl : r.lda = 2) :
    (Matrix.of fun i j : Fin r.n => fortran r.a r.lda i j).det =
      r.a.getD 0 0 * r.a.getD 3 0 - r.a.getD 1 0 * r.a.getD 2 0 := by
  obtain ⟨tr, m, n, nrhs, a, lda, b, ldb, lwork⟩ := r
  subst h
  subst hl
  rw [Matrix.det_fin_two]
  simp [fortran]
  ring

theorem list_of_length_four {α : Type} {l : List α} (h : l.length = 4) : ∃ a b c d, l = [a, b, c, d] := by
  match l, h with
  | [a, b, c, d], _ => exact ⟨a, b, c, d, rfl⟩

theorem cramerGels_contract : GelsContract cramerGels := by
  have R := refGels_contract (K := ℚ)
  have Z : ∀ r : GelsArgs ℚ, r.a.length = 4 →
      ((r.a.getD 0 0 = 0 ∧ r.a.getD 1 0 = 0 ∧ r.a.getD 2 0 = 0 ∧ r.a.getD 3 0 = 0) ↔ ∀ x ∈ r.a, x = 0) := by
    intro r hl
    obtain ⟨a0, a1, a2, a3, h⟩ := list_of_length_four hl
    rw [h]
    simp
  refine ⟨?_, ?_, ?_, ?_, ?_, ?_⟩
  · intro r
    unfold cramerGels
    split
    · rename_i h
      dsimp only
      split
      · exact ⟨rfl, h.2.2.2.2.2.symm⟩
      split
      · exact ⟨rfl, rfl⟩
      · exact ⟨rfl, h.2.2.2.2.2.symm⟩
    · exact R.sizes r
  · intro r h1 h2 h3 h4
    unfold cramerGels
    rw [if_neg (by rintro ⟨_, _, _, _, _⟩; omega)]
    exact R.bad_ldb r h1 h2 h3 h4
  · intro r h1 h2 h3 h4 h5 h6 h7 h8 h9 hdet
    unfold cramerGels
    split
    · rename_i h
      rw [fortran_det2 r h.2.1 h.2.2.1] at hdet
      dsimp only
      rw [if_neg (by rintro ⟨e0, e1, -⟩; apply hdet; rw [e0, e1]; ring), if_neg hdet]
      refine ⟨rfl, ?_⟩
      intro j hj
      rw [h.2.1, h.2.2.1]
      rw [h.2.1] at hj
      rcases (show j = 0 ∨ j = 1 by omega) with rfl | rfl
      · simp only [Finset.sum_range_succ, Finset.sum_range_zero, fortran, List.getD_cons_zero, List.getD_cons_succ,
          Nat.zero_mul, Nat.add_zero, Nat.zero_add, Nat.reduceAdd]
        generalize r.a.getD 0 0 = a0 at *
        generalize r.a.getD 1 0 = a1 at *
        generalize r.a.getD 2 0 = a2 at *
        generalize r.a.getD 3 0 = a3 at *
        rw [zero_add, ← mul_div_assoc, ← mul_div_assoc, ← add_div, div_eq_iff hdet]
        ring
      · simp only [Finset.sum_range_succ, Finset.sum_range_zero, fortran, List.getD_cons_zero, List.getD_cons_succ,
          Nat.zero_mul, Nat.one_mul, Nat.add_zero, Nat.zero_add, Nat.reduceAdd]
        generalize r.a.getD 0 0 = a0 at *
        generalize r.a.getD 1 0 = a1 at *
        generalize r.a.getD 2 0 = a2 at *
        generalize r.a.getD 3 0 = a3 at *
        rw [zero_add, ← mul_div_assoc, ← mul_div_assoc, ← add_div, div_eq_iff hdet]
        ring
    · exact R.square_ok r h1 h2 h3 h4 h5 h6 h7 h8 h9 hdet
  · intro r h1 h2 h3 h4 h5 h6 h7 h8 h9 hne hdet
    unfold cramerGels
    split
    · rename_i h
      rw [fortran_det2 r h.2.1 h.2.2.1] at hdet
      dsimp only
      rw [if_neg (by rw [Z r h.2.2.2.2.1]; push Not; exact hne), if_pos hdet]
      norm_num
    · exact R.square_singular r h1 h2 h3 h4 h5 h6 h7 h8 h9 hne hdet
  · intro r h1 h2 h3 h4 h5 h6 h7 h8 h9 hne0 h10
    have hne : ¬ (r.m = 2 ∧ r.n = 2 ∧ r.lda = 2 ∧ r.ldb = 2 ∧ r.a.length = 4 ∧ r.b.length = 2) := by
      rintro ⟨_, _, _⟩; omega
    unfold cramerGels at h10 ⊢
    rw [if_neg hne] at h10 ⊢
    exact R.tall r h1 h2 h3 h4 h5 h6 h7 h8 h9 hne0 h10
  · intro r h1 h2 h3 h4 h5 h6 h7 h8 h9 h0
    unfold cramerGels
    split
    · rename_i h
      dsimp only
      rw [if_pos ((Z r h.2.2.2.2.1).2 h0), h.2.2.2.2.2]
      exact ⟨rfl, rfl⟩
    · exact R.zero r h1 h2 h3 h4 h5 h6 h7 h8 h9 h0

section
variable {K : Type} [Field K] [LinearOrder K]

/-- Sorting by distance from the center of gravity, ties in the order given. -/
def stdSort (l : List (Pt K)) : List (Pt K) :=
  l.insertionSort fun p q => distanceSquareFromCenter (gravityCenter l) p ≤ distanceSquareFromCenter (gravityCenter l) q

theorem stdSort_ok (l : List (Pt K)) : IsStdSort l (stdSort l) := by
  refine ⟨List.perm_insertionSort _ _, ?_⟩
  have : List.Pairwise (fun p q => distanceSquareFromCenter (gravityCenter l) p ≤
      distanceSquareFromCenter (gravityCenter l) q) (stdSort l) := by
    have : Std.Total fun p q : Pt K => distanceSquareFromCenter (gravityCenter l) p ≤ distanceSquareFromCenter (gravityCenter l) q :=
      ⟨fun p q => le_total _ _⟩
    have : IsTrans (Pt K) fun p q : Pt K => distanceSquareFromCenter (gravityCenter l) p ≤ distanceSquareFromCenter (gravityCenter l) q :=
      ⟨fun p q r => le_trans⟩
    exact List.pairwise_insertionSort _ _
  refine this.imp ?_
  intro p q h
  exact not_lt.mpr h

end
end Sg.Witness
