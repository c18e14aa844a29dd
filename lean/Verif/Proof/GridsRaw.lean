import Verif.Model.GridsRaw
import Verif.Proof.Grids
import Verif.Proof.Loops
import Verif.Proof.FindPointRaw
namespace Sg
/-- A loop on coded states. -/
theorem forFrom_map {σ τ : Type} (g : σ → τ) (f : Nat → σ → Cxx σ) (f' : Nat → τ → Cxx τ)
    (h : ∀ k s, f' k (g s) = (f k s).map g) : ∀ (n start : Nat) (s : σ), forFrom start n (g s) f' = (forFrom start n s f).map g
  | 0, _, _ => rfl
  | n + 1, start, s => by
    simp only [forFrom, h]
    cases f start s with
    | error e => rfl
    | ok s' => exact forFrom_map g f f' h n (start + 1) s'

theorem forN_map {σ τ : Type} (g : σ → τ) (f : Nat → σ → Cxx σ) (f' : Nat → τ → Cxx τ)
    (h : ∀ k s, f' k (g s) = (f k s).map g) (n : Nat) (s : σ) : forN n (g s) f' = (forN n s f).map g :=
  forFrom_map g f f' h n 0 s

/-- A loop on two arguments: the functions agree in the rounds that are run. -/
theorem forFrom_congr {σ : Type} (f f' : Nat → σ → Cxx σ) : ∀ (n start : Nat) (s : σ),
    (∀ k s, start ≤ k → k < start + n → f k s = f' k s) → forFrom start n s f = forFrom start n s f'
  | 0, _, _, _ => rfl
  | n + 1, start, s, h => by
    simp only [forFrom, h start s (Nat.le_refl _) (by omega)]
    cases f' start s with
    | error e => rfl
    | ok s' => exact forFrom_congr f f' n (start + 1) s' fun k s a b => h k s (by omega) (by omega)

theorem forN_congr {σ : Type} (f f' : Nat → σ → Cxx σ) (n : Nat) (s : σ)
    (h : ∀ k s, k < n → f k s = f' k s) : forN n s f = forN n s f' :=
  forFrom_congr f f' n 0 s fun k s _ hk => h k s (by omega)

theorem forFrom_id {σ : Type} : ∀ (n start : Nat) (s : σ), forFrom start n s (fun _ s => .ok s) = .ok s
  | 0, _, _ => rfl
  | n + 1, start, s => forFrom_id n (start + 1) s

end Sg

namespace Sg.Grids
open Sg.FindPoint
variable {F : Type}

theorem putAt_zero (a b : List F) (k : Nat) (x : F) : putAt [a, b] 0 k x = (vset a k x).map fun a' => [a', b] := by
  simp only [putAt, vget, List.getElem?_cons_zero, bind, Except.bind]
  cases vset a k x <;> rfl

theorem putAt_one (a b : List F) (k : Nat) (x : F) : putAt [a, b] 1 k x = (vset b k x).map fun b' => [a, b'] := by
  simp only [putAt, vget, List.getElem?_cons_succ, List.getElem?_cons_zero, bind, Except.bind]
  cases vset b k x <;> rfl

theorem fillRaw_eq {ρ : Type} (n0 n1 : Nat) (row : Nat → Cxx ρ) (node : ρ → Nat → Cxx (F × F)) (f : Nat → Nat → F × F)
    (h : ∀ i, ∃ q, row i = .ok q ∧ ∀ j, node q j = .ok (f i j)) (a b : List F) :
    fillRaw n0 n1 row node [a, b] = (fillNodes n0 n1 f (a, b)).map fun r => [r.1, r.2] := by
  have := forN_map (fun s : (List F × List F) × Nat => (([s.1.1, s.1.2] : List (List F)), s.2))
    (fun i s => forN n1 s fun j (s : (List F × List F) × Nat) => do
      let a ← vset s.1.1 s.2 (f i j).1
      let b ← vset s.1.2 s.2 (f i j).2
      .ok ((a, b), s.2 + 1))
    (fun i s => do
      let q ← row i
      forN n1 s fun j (s : List (List F) × Nat) => do
        let p ← node q j
        let a ← putAt s.1 0 s.2 p.1
        let b ← putAt a 1 s.2 p.2
        .ok (b, s.2 + 1))
    (by
      intro i s
      obtain ⟨q, e, hq⟩ := h i
      simp only [e, bind, Except.bind]
      refine forN_map (fun s : (List F × List F) × Nat => (([s.1.1, s.1.2] : List (List F)), s.2)) _ _ ?_ n1 s
      rintro j ⟨⟨u, v⟩, k⟩
      simp only [hq, putAt_zero]
      cases vset u k (f i j).1 with
      | error e => rfl
      | ok u' =>
        simp only [Except.map, putAt_one]
        cases vset v k (f i j).2 <;> rfl)
    n0 ((a, b), 0)
  simp only [fillRaw, fillNodes, bind, Except.bind] at this ⊢
  rw [this]
  cases forN n0 ((a, b), 0) _ <;> rfl

/-- Arrays that are too short. -/
theorem fillNodes_short (n0 n1 : Nat) (f : Nat → Nat → F × F) (a b : List F) (h : a.length < n0 * n1 ∨ b.length < n0 * n1) :
    fillNodes n0 n1 f (a, b) = .error .outOfBounds := by
  have herr : ∀ i s, (∃ s', (forN n1 s fun j (s : (List F × List F) × Nat) => do
      let a ← vset s.1.1 s.2 (f i j).1
      let b ← vset s.1.2 s.2 (f i j).2
      Except.ok ((a, b), s.2 + 1)) = .ok s' ∧ True) ∨ ∃ e, (forN n1 s fun j (s : (List F × List F) × Nat) => do
      let a ← vset s.1.1 s.2 (f i j).1
      let b ← vset s.1.2 s.2 (f i j).2
      Except.ok ((a, b), s.2 + 1)) = .error e ∧ e = UB.outOfBounds := by
    intro i s
    refine forN_inv_or (fun _ => True) (fun e => e = UB.outOfBounds) _ n1 s trivial ?_
    rintro j ⟨⟨u, v⟩, k⟩ - -
    by_cases h1 : k < u.length
    · by_cases h2 : k < v.length
      · exact .inl ⟨_, by simp only [vset_ok h1, vset_ok h2, bind, Except.bind]; rfl, trivial⟩
      · exact .inr ⟨_, by simp only [vset, h1, h2, if_true, if_false, bind, Except.bind], rfl⟩
    · exact .inr ⟨_, by simp only [vset, h1, if_false, bind, Except.bind], rfl⟩
  rcases forN_inv_or (fun _ => True) (fun e => e = UB.outOfBounds) _ n0 ((a, b), 0) trivial (fun k s _ _ => herr k s) with
    ⟨s', hs, -⟩ | ⟨e, he, rfl⟩
  · exfalso
    have hI := forN_inv_ok (fun i (s : (List F × List F) × Nat) => s.2 = i * n1 ∧ s.1.1.length = a.length ∧
        s.1.2.length = b.length ∧ s.2 ≤ a.length ∧ s.2 ≤ b.length) _ n0 ((a, b), 0) s'
      ⟨by simp, rfl, rfl, by simp, by simp⟩
      (by
        rintro i s t - ⟨e0, e1, e2, e3, e4⟩ hst
        have := forN_inv_ok (fun j (s : (List F × List F) × Nat) => s.2 = i * n1 + j ∧ s.1.1.length = a.length ∧
          s.1.2.length = b.length ∧ s.2 ≤ a.length ∧ s.2 ≤ b.length) _ n1 s t ⟨e0, e1, e2, e3, e4⟩
          (by
            rintro j ⟨⟨u, v⟩, k⟩ w - ⟨g0, g1, g2, g3, g4⟩ hw
            simp only at g0 g1 g2 g3 g4
            by_cases h1 : k < u.length
            · by_cases h2 : k < v.length
              · simp only [vset_ok h1, vset_ok h2, bind, Except.bind] at hw
                cases hw
                exact ⟨by simp only; omega, by simpa using g1, by simpa using g2, by simp only; omega, by simp only; omega⟩
              · simp only [vset, h1, h2, if_true, if_false, bind, Except.bind] at hw; cases hw
            · simp only [vset, h1, if_false, bind, Except.bind] at hw; cases hw)
          hst
        rw [Nat.add_mul, Nat.one_mul]
        exact this)
      hs
    obtain ⟨e0, e1, e2, e3, e4⟩ := hI
    omega
  · simp only [fillNodes, bind, Except.bind] at he ⊢
    rw [he]

end Sg.Grids
