import Verif.Proof.SideIterator
/-
Properties C06-C07 of the side iterator.
-/
namespace Sg.Props
open Sg Sg.SideIterator Sg.Spec

/-- **C06** for every number of dimensions `n ≥ 1` (with `3^n` below `2^64`) a new iterator visits
a strictly lexicographically increasing list (hence without repetition) that consists of exactly
the vectors of {-1,0,1}^n, both for the loop over `getNumberOfElements` and for the loop that stops
when `next` reports the end.  The latter stops by itself: any `fuel ≥ 3^n` gives the same list. -/
theorem C06_side_visits_all (n : Nat) (hn : 1 ≤ n) (hw : 3 ^ n < 2 ^ 64) :
    ∃ s, SideIterator.new n = .ok s ∧ s.getNumberOfElements = 3 ^ n ∧
      ∃ l : List (List Int), sweep s.getNumberOfElements s = .ok l ∧
        (∀ fuel, 3 ^ n ≤ fuel → visit fuel s = .ok l) ∧
        l.length = 3 ^ n ∧ l.Pairwise (· < ·) ∧ ∀ v, v ∈ l ↔ IsSide n v := by
  have hw' : 3 ^ n < 18446744073709551616 := by simpa using hw
  have hpos : 0 < 3 ^ n := by positivity
  refine ⟨⟨0, 3 ^ n, pows n⟩, ?_, rfl, (List.range' 0 (3 ^ n)).map (side n),
    sweep_from n hw' (3 ^ n) 0 (by omega), ?_, by simp, ?_, ?_⟩
  · simp [SideIterator.new, show n ≠ 0 by omega, mkNumElems_eq n hw', mkProdDims_eq n hw']
  · intro fuel hf
    have := visit_from n hw' (3 ^ n - 1) 0 fuel (by omega) (by omega)
    rwa [show 3 ^ n - 1 + 1 = 3 ^ n by omega] at this
  · rw [List.pairwise_map]
    refine List.Pairwise.imp_of_mem ?_ (List.pairwise_lt_range' (s := 0) (n := 3 ^ n) (step := 1))
    intro a b _ hb hab
    exact side_lt hab (by simp at hb; omega)
  · intro v
    simp only [List.mem_map, List.mem_range']
    constructor
    · rintro ⟨k, _, rfl⟩; exact side_isSide n k
    · intro hv
      obtain ⟨k, hk, rfl⟩ := exists_side hv
      exact ⟨k, ⟨k, hk, by simp⟩, rfl⟩

/-- **C06 (return codes)** after `k` calls of `next` on a new iterator, the following call returns 0
exactly if it is one of the first `3^n - 1` calls. -/
theorem C06_side_next_code (n : Nat) (hn : 1 ≤ n) (hw : 3 ^ n < 2 ^ 64) (k : Nat) (hk : k + 1 < 2 ^ 64) :
    ∃ s, SideIterator.new n = .ok s ∧
      (((fun t : SideIt => t.next.1)^[k] s).next.2 = 0 ↔ k + 1 < 3 ^ n) := by
  have hw' : 3 ^ n < 18446744073709551616 := by simpa using hw
  refine ⟨⟨0, 3 ^ n, pows n⟩, ?_, ?_⟩
  · simp [SideIterator.new, show n ≠ 0 by omega, mkNumElems_eq n hw', mkProdDims_eq n hw']
  · have it : ∀ j, j < 2 ^ 64 → (fun t : SideIt => t.next.1)^[j] ⟨0, 3 ^ n, pows n⟩ = ⟨j, 3 ^ n, pows n⟩ := by
      intro j
      induction j with
      | zero => intro _; rfl
      | succ j ih =>
        intro hj
        rw [Function.iterate_succ_apply', ih (by omega)]
        simp only [SideIt.next]
        rw [wrap_of_lt (by simpa using hj)]
    rw [it k (by omega)]
    simp only [SideIt.next]
    rw [wrap_of_lt (by simpa using hk)]
    split <;> simp_all

/-- **C07** whatever number of `next` calls was made (also past the end, also with wrap-around of the
counter), `reset` gives back the state of a new iterator. -/
theorem C07_side_reset (n : Nat) (s : SideIt) (h : SideIterator.new n = .ok s) (k : Nat) :
    ((fun t : SideIt => t.next.1)^[k] s).reset = s := by
  have hn : ∀ (j : Nat), ((fun t : SideIt => t.next.1)^[j] s).numElems = s.numElems ∧
      ((fun t : SideIt => t.next.1)^[j] s).prodDims = s.prodDims := by
    intro j
    induction j with
    | zero => exact ⟨rfl, rfl⟩
    | succ j ih => rw [Function.iterate_succ_apply']; exact ih
  have h0 : s.index = 0 := by
    simp only [SideIterator.new] at h
    split at h
    · cases h
    · cases h; rfl
  obtain ⟨a, b⟩ := hn k
  cases s
  simp only [SideIt.reset, a, b]
  simp_all

/-- The hypotheses hold for the dimensions in use (2, 3) and up to 40. -/
example : (1 ≤ 40 ∧ 3 ^ 40 < 2 ^ 64) := by decide
example : (SideIterator.new 2 >>= fun s => visit 20 s) =
    .ok [[-1,-1],[-1,0],[-1,1],[0,-1],[0,0],[0,1],[1,-1],[1,0],[1,1]] := by decide

end Sg.Props
