import Verif.Proof.Cxx
/- Comparison of two loops. -/
namespace Sg

/-- Both computations fail in the same way, or both succeed with related results. -/
def Cxx.Rel {α β : Type} (R : α → β → Prop) (x : Cxx α) (y : Cxx β) : Prop :=
  (∃ a b, x = .ok a ∧ y = .ok b ∧ R a b) ∨ ∃ e, x = .error e ∧ y = .error e

theorem forFrom_rel {σ τ : Type} (R : Nat → σ → τ → Prop) (f : Nat → σ → Cxx σ) (f' : Nat → τ → Cxx τ) :
    ∀ (n start : Nat) (s : σ) (t : τ), R start s t →
      (∀ k s t, start ≤ k → k < start + n → R k s t → Cxx.Rel (R (k + 1)) (f k s) (f' k t)) →
      Cxx.Rel (R (start + n)) (forFrom start n s f) (forFrom start n t f')
  | 0, start, s, t, h0, _ => Or.inl ⟨s, t, rfl, rfl, h0⟩
  | n + 1, start, s, t, h0, hs => by
    rcases hs start s t (Nat.le_refl _) (by omega) h0 with ⟨a, b, e1, e2, h⟩ | ⟨e, e1, e2⟩
    · have := forFrom_rel R f f' n (start + 1) a b h (fun k s t hk hk' => hs k s t (by omega) (by omega))
      rw [show start + 1 + n = start + (n + 1) by omega] at this
      simpa [forFrom, e1, e2] using this
    · exact Or.inr ⟨e, by simp [forFrom, e1], by simp [forFrom, e2]⟩

theorem forN_rel {σ τ : Type} (R : Nat → σ → τ → Prop) (f : Nat → σ → Cxx σ) (f' : Nat → τ → Cxx τ) (n : Nat) (s : σ)
    (t : τ) (h0 : R 0 s t) (hs : ∀ k s t, k < n → R k s t → Cxx.Rel (R (k + 1)) (f k s) (f' k t)) :
    Cxx.Rel (R n) (forN n s f) (forN n t f') := by
  have := forFrom_rel R f f' n 0 s t h0 (fun k s t _ hk => hs k s t (by omega))
  simpa [forN] using this

/-- Loop rule for a loop that is known to have ended: an invariant kept by the rounds that end. -/
theorem forFrom_inv_ok {σ : Type} (P : Nat → σ → Prop) (f : Nat → σ → Cxx σ) :
    ∀ (n start : Nat) (s s' : σ), P start s →
      (∀ k s s', start ≤ k → k < start + n → P k s → f k s = .ok s' → P (k + 1) s') →
      forFrom start n s f = .ok s' → P (start + n) s'
  | 0, start, s, s', h0, _, h => by cases h; exact h0
  | n + 1, start, s, s', h0, hs, h => by
    unfold forFrom at h
    cases h1 : f start s with
    | error e => rw [h1] at h; cases h
    | ok s1 =>
      rw [h1] at h
      have := forFrom_inv_ok P f n (start + 1) s1 s' (hs start s s1 (Nat.le_refl _) (by omega) h0 h1)
        (fun k s s' hk hk' => hs k s s' (by omega) (by omega)) h
      rwa [show start + (n + 1) = start + 1 + n by omega]

theorem forN_inv_ok {σ : Type} (P : Nat → σ → Prop) (f : Nat → σ → Cxx σ) (n : Nat) (s s' : σ) (h0 : P 0 s)
    (hs : ∀ k s s', k < n → P k s → f k s = .ok s' → P (k + 1) s') (h : forN n s f = .ok s') : P n s' := by
  have := forFrom_inv_ok P f n 0 s s' h0 (fun k s s' _ hk => hs k s s' (by omega)) h
  simpa using this

/-- Loop rule when rounds may fail: the loop ends with the invariant, or with one of the failures. -/
theorem forFrom_inv_or {σ : Type} (P : σ → Prop) (Q : UB → Prop) (f : Nat → σ → Cxx σ) :
    ∀ (n start : Nat) (s : σ), P s →
      (∀ k s, start ≤ k → k < start + n → P s → (∃ s', f k s = .ok s' ∧ P s') ∨ ∃ e, f k s = .error e ∧ Q e) →
      (∃ s', forFrom start n s f = .ok s' ∧ P s') ∨ ∃ e, forFrom start n s f = .error e ∧ Q e
  | 0, _, s, h0, _ => Or.inl ⟨s, rfl, h0⟩
  | n + 1, start, s, h0, hs => by
    rcases hs start s (Nat.le_refl _) (by omega) h0 with ⟨a, e1, h⟩ | ⟨e, e1, h⟩
    · have := forFrom_inv_or P Q f n (start + 1) a h (fun k s hk hk' => hs k s (by omega) (by omega))
      simpa [forFrom, e1] using this
    · exact Or.inr ⟨e, by simp [forFrom, e1], h⟩

theorem forN_inv_or {σ : Type} (P : σ → Prop) (Q : UB → Prop) (f : Nat → σ → Cxx σ) (n : Nat) (s : σ) (h0 : P s)
    (hs : ∀ k s, k < n → P s → (∃ s', f k s = .ok s' ∧ P s') ∨ ∃ e, f k s = .error e ∧ Q e) :
    (∃ s', forN n s f = .ok s' ∧ P s') ∨ ∃ e, forN n s f = .error e ∧ Q e :=
  forFrom_inv_or P Q f n 0 s h0 (fun k s _ hk => hs k s (by omega))

end Sg
