import Mathlib.Algebra.BigOperators.Group.Finset.Basic
import Mathlib.Algebra.BigOperators.Ring.Finset
import Mathlib.Data.Real.Basic
import Mathlib.Tactic.Linarith
import Mathlib.Tactic.Ring
/- Sums of differences over intervals that fill an interval. -/
namespace Sg.Telescope

theorem exists_gap {ι : Type} (s : Finset ι) (α : ι → ℝ) {x y : ℝ} (h : x < y) :
    ∃ e, x < e ∧ e ≤ y ∧ ∀ k ∈ s, x < α k → e ≤ α k := by
  classical
  induction s using Finset.induction_on with
  | empty => exact ⟨y, h, le_rfl, by simp⟩
  | insert a s ha ih =>
    obtain ⟨e, h1, h2, h3⟩ := ih
    by_cases hx : x < α a
    · refine ⟨min e (α a), lt_min h1 hx, (min_le_left _ _).trans h2, fun k hk hk' => ?_⟩
      rcases Finset.mem_insert.mp hk with rfl | hk
      · exact min_le_right _ _
      · exact (min_le_left _ _).trans (h3 k hk hk')
    · refine ⟨e, h1, h2, fun k hk hk' => ?_⟩
      rcases Finset.mem_insert.mp hk with rfl | hk
      · exact absurd hk' hx
      · exact h3 k hk hk'

/-- Some interval starts at `x` and is longer than a point. -/
theorem exists_first {ι : Type} (s : Finset ι) (α β : ι → ℝ) {x y : ℝ} (h : x < y)
    (hin : ∀ k ∈ s, x ≤ α k) (hcov : ∀ p, x < p → p < y → ∃ k ∈ s, α k ≤ p ∧ p ≤ β k) :
    ∃ k ∈ s, α k = x ∧ x < β k := by
  obtain ⟨e, h1, h2, h3⟩ := exists_gap s α h
  obtain ⟨k, hk, ha, hb⟩ := hcov ((x + e) / 2) (by linarith) (by linarith)
  refine ⟨k, hk, ?_, by linarith⟩
  by_contra hne
  have := h3 k hk (lt_of_le_of_ne (hin k hk) (Ne.symm hne))
  linarith

/-- Intervals that cover `(x, y)`, lie in `[x, y]`, and have at most a point in common in pairs: the sum of the
differences is the difference at the ends. -/
theorem sum_intervals {ι : Type} (f : ℝ → ℝ) (α β : ι → ℝ) (y : ℝ) :
    ∀ (n : Nat) (s : Finset ι), s.card = n → ∀ x, x ≤ y → (∀ k ∈ s, x ≤ α k ∧ α k ≤ β k ∧ β k ≤ y) →
    (∀ p, x < p → p < y → ∃ k ∈ s, α k ≤ p ∧ p ≤ β k) →
    (∀ k ∈ s, ∀ l ∈ s, k ≠ l → ¬ max (α k) (α l) < min (β k) (β l)) →
    ∑ k ∈ s, (f (β k) - f (α k)) = f y - f x := by
  classical
  intro n
  induction n using Nat.strong_induction_on with
  | _ n ih =>
    intro s hn x hxy hin hcov hdis
    rcases eq_or_lt_of_le hxy with rfl | hlt
    · rw [sub_self]
      refine Finset.sum_eq_zero fun k hk => ?_
      obtain ⟨h1, h2, h3⟩ := hin k hk
      rw [show β k = α k by linarith, sub_self]
    · obtain ⟨k, hk, hak, hbk⟩ := exists_first s α β hlt (fun k hk => (hin k hk).1) hcov
      obtain ⟨-, -, hky⟩ := hin k hk
      set s' := s.filter fun j => β k ≤ α j with hs'
      have hks' : k ∉ s' := by
        rw [hs', Finset.mem_filter]; rintro ⟨_, h⟩; linarith
      have hsub : s' ⊆ s.erase k := fun j hj =>
        Finset.mem_erase.mpr ⟨fun h => hks' (h ▸ hj), (Finset.mem_filter.mp hj).1⟩
      have hcard : s'.card < n := by
        rw [← hn]
        exact lt_of_le_of_lt (Finset.card_le_card hsub) (Finset.card_erase_lt_of_mem hk)
      have hrest : ∀ j ∈ s.erase k, j ∉ s' → f (β j) - f (α j) = 0 := by
        intro j hj hj'
        obtain ⟨hjk, hjs⟩ := Finset.mem_erase.mp hj
        obtain ⟨h1, h2, h3⟩ := hin j hjs
        have hlt' : α j < β k := by
          by_contra hge
          exact hj' (Finset.mem_filter.mpr ⟨hjs, not_lt.mp hge⟩)
        have := hdis j hjs k hk hjk
        have hle : min (β j) (β k) ≤ max (α j) (α k) := not_lt.mp this
        rw [hak, max_eq_left h1] at hle
        rcases min_le_iff.mp hle with h | h
        · rw [show β j = α j by linarith, sub_self]
        · linarith
      rw [← Finset.add_sum_erase s _ hk, ← Finset.sum_subset hsub hrest,
        ih s'.card hcard s' rfl (β k) hky ?_ ?_ ?_, hak]
      · ring
      · intro j hj
        obtain ⟨hjs, hjk⟩ := Finset.mem_filter.mp hj
        exact ⟨hjk, (hin j hjs).2.1, (hin j hjs).2.2⟩
      · intro p hp hpy
        obtain ⟨j, hjs, h1, h2⟩ := hcov p (by linarith) hpy
        refine ⟨j, Finset.mem_filter.mpr ⟨hjs, ?_⟩, h1, h2⟩
        by_contra hge
        have hjk : j ≠ k := by rintro rfl; linarith
        have := hdis j hjs k hk hjk
        apply this
        rw [hak, max_eq_left (hin j hjs).1]
        exact lt_min (by linarith) (not_le.mp hge)
      · intro j hj l hl
        exact hdis j (Finset.mem_filter.mp hj).1 l (Finset.mem_filter.mp hl).1

end Sg.Telescope
