import Verif.Model.Cxx
/- Lemmas on loops and vector accesses. -/
namespace Sg

theorem vget_ok {α : Type} {l : List α} {i : Nat} (h : i < l.length) : vget l i = .ok l[i] := by
  simp [vget, List.getElem?_eq_getElem h]

theorem vget_eq_ok {α : Type} {l : List α} {i : Nat} {a : α} : vget l i = .ok a ↔ l[i]? = some a := by
  unfold vget; cases h : l[i]? <;> simp

theorem vset_ok {α : Type} {l : List α} {i : Nat} {a : α} (h : i < l.length) :
    vset l i a = .ok (l.set i a) := by simp [vset, h]

/-- Loop rule: an indexed invariant. -/
theorem forFrom_inv {σ : Type} (P : Nat → σ → Prop) (f : Nat → σ → Cxx σ) :
    ∀ (n start : Nat) (s : σ), P start s →
      (∀ k s, start ≤ k → k < start + n → P k s → ∃ s', f k s = .ok s' ∧ P (k + 1) s') →
      ∃ s', forFrom start n s f = .ok s' ∧ P (start + n) s'
  | 0, start, s, h0, _ => ⟨s, rfl, h0⟩
  | n + 1, start, s, h0, hs => by
    obtain ⟨s1, e1, p1⟩ := hs start s (Nat.le_refl _) (by omega) h0
    obtain ⟨s2, e2, p2⟩ := forFrom_inv P f n (start + 1) s1 p1
      (fun k s hk hk' => hs k s (by omega) (by omega))
    refine ⟨s2, by simp [forFrom, e1, e2], ?_⟩
    rwa [show start + (n + 1) = start + 1 + n by omega]

theorem forN_inv {σ : Type} (P : Nat → σ → Prop) (f : Nat → σ → Cxx σ) (n : Nat) (s : σ)
    (h0 : P 0 s) (hs : ∀ k s, k < n → P k s → ∃ s', f k s = .ok s' ∧ P (k + 1) s') :
    ∃ s', forN n s f = .ok s' ∧ P n s' := by
  have := forFrom_inv P f n 0 s h0 (fun k s _ hk => hs k s (by omega))
  simpa [forN] using this

/-- Loop without failing steps. -/
theorem forFrom_pure {σ : Type} (g : Nat → σ → σ) (f : Nat → σ → Cxx σ) (n start : Nat) (s : σ)
    (hf : ∀ k s, start ≤ k → k < start + n → f k s = .ok (g k s)) :
    forFrom start n s f = .ok ((List.range' start n).foldl (fun s k => g k s) s) := by
  induction n generalizing start s with
  | zero => rfl
  | succ n ih =>
    simp only [forFrom, hf start s (Nat.le_refl _) (by omega)]
    rw [ih (start + 1) _ (fun k s h1 h2 => hf k s (by omega) (by omega)), List.range'_succ]
    rfl

theorem forN_pure {σ : Type} (g : Nat → σ → σ) (f : Nat → σ → Cxx σ) (n : Nat) (s : σ)
    (hf : ∀ k s, k < n → f k s = .ok (g k s)) :
    forN n s f = .ok ((List.range n).foldl (fun s k => g k s) s) := by
  rw [forN, forFrom_pure g f n 0 s (fun k s _ h => hf k s (by omega)), List.range_eq_range']

end Sg
