import Verif.Proof.Cxx
import Verif.Spec.Gels
import Mathlib.Algebra.BigOperators.Intervals
import Mathlib.LinearAlgebra.Matrix.NonsingularInverse
import Mathlib.Algebra.Order.Field.Basic
import Mathlib.Tactic.Linarith
namespace Sg.LinearSolve
open Sg.Spec

variable {F : Type}

/-- sizes of the members -/
structure WF (s : Solver F) : Prop where
  mat : s.mat.length = s.nrow * s.ncol
  matOri : s.matOri.length = s.nrow * s.ncol
  b : s.b.length = s.nrow
  x : s.x.length = max s.nrow s.ncol

theorem wf_new [Zero F] (nrow ncol : Nat) : WF (new nrow ncol : Solver F) := by
  constructor <;> simp [new]
  split <;> omega

theorem map_range_ext {l : List F} {n : Nat} {a : Nat → F} (hl : l.length = n)
    (h : ∀ k < n, l[k]? = some (a k)) : l = (List.range n).map a := by
  apply List.ext_getElem?
  intro k
  by_cases hk : k < n
  · rw [h k hk]; simp [hk]
  · rw [List.getElem?_eq_none (by omega), List.getElem?_eq_none (by simp; omega)]

theorem setMatrix_ok (s : Solver F) (hs : WF s) (a : Nat → F) :
    s.setMatrix a = .ok { s with mat := (List.range (s.nrow * s.ncol)).map a,
                                 matOri := (List.range (s.nrow * s.ncol)).map a } := by
  let Q : Nat → Solver F → Prop := fun c t =>
    t.nrow = s.nrow ∧ t.ncol = s.ncol ∧ t.b = s.b ∧ t.x = s.x ∧ t.lwork = s.lwork ∧
    t.mat.length = s.nrow * s.ncol ∧ t.matOri.length = s.nrow * s.ncol ∧
    ∀ k < c, t.mat[k]? = some (a k) ∧ t.matOri[k]? = some (a k)
  obtain ⟨t, e, hQ⟩ : ∃ t, s.setMatrix a = .ok t ∧ Q (s.nrow * s.ncol) t := by
    unfold Solver.setMatrix
    refine forN_inv (fun i t => Q (i * s.ncol) t) _ s.nrow s
      ⟨rfl, rfl, rfl, rfl, rfl, hs.mat, hs.matOri, by simp⟩ ?_
    intro i t hi hQ
    rw [Nat.succ_mul]
    refine forN_inv (fun j t => Q (i * s.ncol + j) t) _ s.ncol t (by simpa using hQ) ?_
    intro j t hj hQ
    obtain ⟨h1, h2, h3, h4, h5, h6, h7, h8⟩ := hQ
    have hk : i * s.ncol + j < s.nrow * s.ncol := by
      have : (i + 1) * s.ncol ≤ s.nrow * s.ncol := Nat.mul_le_mul_right _ hi
      rw [Nat.succ_mul] at this; omega
    refine ⟨_, by
      dsimp only
      rw [vset_ok (by omega), vset_ok (by omega)]
      rfl, ?_⟩
    refine ⟨h1, h2, h3, h4, h5, by simp [h6], by simp [h7], ?_⟩
    intro k hk'
    by_cases he : i * s.ncol + j = k
    · subst he
      simp [h6, h7, hk]
    · have := h8 k (by omega)
      simp only [List.getElem?_set, if_neg he]; exact this
  rw [e]
  obtain ⟨h1, h2, h3, h4, h5, h6, h7, h8⟩ := hQ
  congr 1
  cases t
  simp only at h1 h2 h3 h4 h5 h6 h7 h8
  subst h1 h2 h3 h4 h5
  congr
  · exact map_range_ext h6 (fun k hk => (h8 k hk).1)
  · exact map_range_ext h7 (fun k hk => (h8 k hk).2)

theorem setRhs_ok (s : Solver F) (hs : WF s) (b : Nat → F) :
    s.setRightHandSide b = .ok { s with x := (List.range s.nrow).map b ++ s.x.drop s.nrow,
                                        b := (List.range s.nrow).map b } := by
  let Q : Nat → Solver F → Prop := fun c t =>
    t.nrow = s.nrow ∧ t.ncol = s.ncol ∧ t.mat = s.mat ∧ t.matOri = s.matOri ∧ t.lwork = s.lwork ∧
    t.b.length = s.nrow ∧ t.x.length = s.x.length ∧
    (∀ k < c, t.b[k]? = some (b k) ∧ t.x[k]? = some (b k)) ∧ ∀ k, c ≤ k → t.x[k]? = s.x[k]?
  have hx := hs.x
  obtain ⟨t, e, hQ⟩ : ∃ t, s.setRightHandSide b = .ok t ∧ Q s.nrow t := by
    unfold Solver.setRightHandSide
    refine forN_inv Q _ s.nrow s ⟨rfl, rfl, rfl, rfl, rfl, hs.b, rfl, by simp, by simp⟩ ?_
    intro i t hi hQ
    obtain ⟨h1, h2, h3, h4, h5, h6, h7, h8, h9⟩ := hQ
    refine ⟨_, by
      rw [vset_ok (by omega), vset_ok (by omega)]
      rfl, ?_⟩
    refine ⟨h1, h2, h3, h4, h5, by simp [h6], by simp [h7], ?_, ?_⟩
    · intro k hk'
      by_cases he : i = k
      · subst he
        have : i < s.x.length := by omega
        simp [h6, h7, hi, this]
      · have := h8 k (by omega)
        simp only [List.getElem?_set, if_neg he]; exact this
    · intro k hk
      simp only [List.getElem?_set, if_neg (show ¬ i = k by omega)]
      exact h9 k (by omega)
  rw [e]
  obtain ⟨h1, h2, h3, h4, h5, h6, h7, h8, h9⟩ := hQ
  congr 1
  cases t
  simp only at h1 h2 h3 h4 h5 h6 h7 h8 h9
  subst h1 h2 h3 h4 h5
  congr
  · exact map_range_ext h6 (fun k hk => (h8 k hk).1)
  · apply List.ext_getElem?
    intro k
    by_cases hk : k < s.nrow
    · rw [(h8 k hk).2, List.getElem?_append_left (by simpa using hk)]; simp [hk]
    · rw [h9 k (by omega), List.getElem?_append_right (by simp; omega)]
      simp only [List.length_map, List.length_range, List.getElem?_drop]
      congr 1; omega

theorem getD_map_range {a : Nat → F} {n k : Nat} {d : F} (h : k < n) :
    ((List.range n).map a).getD k d = a k := by
  simp [List.getD, h]

section exact
variable {K : Type} [Field K]

theorem foldl_add_sum (f : Nat → K) (n : Nat) (c : K) :
    (List.range n).foldl (fun v k => v + f k) c = c + ∑ k ∈ Finset.range n, f k := by
  induction n with
  | zero => simp
  | succ n ih => rw [List.range_succ, List.foldl_append, ih, Finset.sum_range_succ]; simp [add_assoc]

theorem residual_ok [LinearOrder K] (s : Solver K) (hs : WF s) :
    s.getResidual (fun v => |v|) = .ok (∑ i ∈ Finset.range s.nrow,
      |∑ j ∈ Finset.range s.ncol, s.matOri.getD (i * s.ncol + j) 0 * s.x.getD j 0 - s.b.getD i 0|) := by
  unfold Solver.getResidual
  rw [forN_pure (fun i res => res + |∑ j ∈ Finset.range s.ncol,
    s.matOri.getD (i * s.ncol + j) 0 * s.x.getD j 0 - s.b.getD i 0|)]
  · rw [foldl_add_sum, zero_add]
  · intro i res hi
    have e : (forN s.ncol (0 : K) fun j val => do
        let k := i * s.ncol + j
        let a ← vget s.matOri k
        let x ← vget s.x j
        return val + a * x) = .ok (∑ j ∈ Finset.range s.ncol,
          s.matOri.getD (i * s.ncol + j) 0 * s.x.getD j 0) := by
      rw [forN_pure (fun j val => val + s.matOri.getD (i * s.ncol + j) 0 * s.x.getD j 0)]
      · rw [foldl_add_sum, zero_add]
      · intro j val hj
        have hk : i * s.ncol + j < s.matOri.length := by
          rw [hs.matOri]
          have : (i + 1) * s.ncol ≤ s.nrow * s.ncol := Nat.mul_le_mul_right _ hi
          rw [Nat.succ_mul] at this; omega
        have hx : j < s.x.length := by rw [hs.x]; omega
        simp only [vget_ok hk, vget_ok hx, bind, Except.bind, pure, Except.pure]
        simp [List.getD, hk, hx]
    have hb : i < s.b.length := by rw [hs.b]; exact hi
    rw [e]
    simp only [vget_ok hb, bind, Except.bind, pure, Except.pure]
    simp [List.getD, hb]

end exact

end Sg.LinearSolve
