import Verif.Model.Cxx
import Mathlib.Algebra.Order.Field.Basic
import Mathlib.Tactic.Ring
/-
Two computations that go through corresponding states: both end well, in corresponding results, or both fail in the same way.
-/
namespace Sg.Shift

set_option linter.unusedSectionVars false

/-- Corresponding outcomes. -/
def Sim {α β : Type} (R : α → β → Prop) (x : Cxx α) (y : Cxx β) : Prop :=
  match x, y with
  | .ok a, .ok b => R a b
  | .error e, .error e' => e = e'
  | _, _ => False

variable {α β γ δ σ τ : Type}

theorem sim_ok {R : α → β → Prop} {a : α} {b : β} (h : R a b) : Sim R (.ok a) (.ok b) := h

theorem sim_pure {R : α → β → Prop} {a : α} {b : β} (h : R a b) : Sim R (pure a) (pure b) := h

theorem sim_error {R : α → β → Prop} (e : UB) : Sim R (.error e) (.error e) := rfl

theorem sim_of_eq {x y : Cxx α} (h : x = y) : Sim Eq x y := by
  subst h
  cases x <;> rfl

theorem eq_of_sim {x y : Cxx α} (h : Sim Eq x y) : x = y := by
  cases x <;> cases y <;> simp_all [Sim]

theorem sim_mono {R S : α → β → Prop} {x : Cxx α} {y : Cxx β} (h : Sim R x y) (hRS : ∀ a b, R a b → S a b) : Sim S x y := by
  cases x <;> cases y <;> simp_all [Sim]

theorem sim_map {R : α → β → Prop} {f : α → γ} {f' : β → γ} {x : Cxx α} {y : Cxx β} (h : Sim R x y) (hf : ∀ a b, R a b → f a = f' b) : x.map f = y.map f' := by
  cases x <;> cases y <;> simp_all [Sim, Except.map]
  exact hf _ _ h

theorem sim_bind {R : α → β → Prop} {S : γ → δ → Prop} {x : Cxx α} {y : Cxx β} {f : α → Cxx γ} {f' : β → Cxx δ} (h : Sim R x y)
    (hf : ∀ a b, R a b → Sim S (f a) (f' b)) : Sim S (x >>= f) (y >>= f') := by
  cases x with
  | ok a => cases y with
    | ok b => exact hf a b h
    | error e => exact h.elim
  | error e => cases y with
    | ok b => exact h.elim
    | error e' => exact h

/-- The same computation first. -/
theorem sim_bind_eq {S : γ → δ → Prop} {x : Cxx α} {f : α → Cxx γ} {f' : α → Cxx δ} (hf : ∀ a, Sim S (f a) (f' a)) : Sim S (x >>= f) (x >>= f') :=
  sim_bind (sim_of_eq rfl) fun a _ h => h ▸ hf a

theorem sim_forFrom {R : Nat → σ → τ → Prop} {f : Nat → σ → Cxx σ} {f' : Nat → τ → Cxx τ} : ∀ (n start : Nat) (a : σ) (b : τ), R start a b →
    (∀ i a b, start ≤ i → i < start + n → R i a b → Sim (R (i + 1)) (f i a) (f' i b)) → Sim (R (start + n)) (forFrom start n a f) (forFrom start n b f')
  | 0, start, a, b, h0, _ => h0
  | n + 1, start, a, b, h0, hs => by
    have h1 := hs start a b le_rfl (by omega) h0
    unfold forFrom
    cases e : f start a with
    | ok a' =>
      cases e' : f' start b with
      | ok b' =>
        rw [e, e'] at h1
        have := sim_forFrom n (start + 1) a' b' h1 fun i a b h2 h3 => hs i a b (by omega) (by omega)
        rw [show start + (n + 1) = start + 1 + n by omega]
        exact this
      | error => rw [e, e'] at h1; exact h1.elim
    | error =>
      cases e' : f' start b with
      | ok b' => rw [e, e'] at h1; exact h1.elim
      | error => rw [e, e'] at h1; exact h1

theorem sim_forN {R : Nat → σ → τ → Prop} {f : Nat → σ → Cxx σ} {f' : Nat → τ → Cxx τ} (n : Nat) {a : σ} {b : τ} (h0 : R 0 a b)
    (hs : ∀ i a b, i < n → R i a b → Sim (R (i + 1)) (f i a) (f' i b)) : Sim (R n) (forN n a f) (forN n b f') := by
  have := sim_forFrom (R := R) n 0 a b h0 fun i a b _ h => hs i a b (by omega)
  rwa [Nat.zero_add] at this

theorem sim_forN' {R : σ → τ → Prop} {f : Nat → σ → Cxx σ} {f' : Nat → τ → Cxx τ} (n : Nat) {a : σ} {b : τ} (h0 : R a b)
    (hs : ∀ i a b, i < n → R a b → Sim R (f i a) (f' i b)) : Sim R (forN n a f) (forN n b f') := sim_forN (R := fun _ => R) n h0 hs

theorem sim_vget {R : α → β → Prop} {l : List α} {l' : List β} (i : Nat) (h : ∀ a, l[i]? = some a → ∃ b, l'[i]? = some b ∧ R a b) (hn : l[i]? = none → l'[i]? = none) :
    Sim R (vget l i) (vget l' i) := by
  unfold vget
  cases e : l[i]? with
  | none => rw [hn e]; rfl
  | some a =>
    obtain ⟨b, e', hb⟩ := h a e
    rw [e']
    exact hb

theorem sim_vget_map (f : α → β) (l : List α) (i : Nat) : Sim (fun a b => b = f a) (vget l i) (vget (l.map f) i) :=
  sim_vget i (fun a h => ⟨f a, by rw [List.getElem?_map, h]; rfl, rfl⟩) fun h => by rw [List.getElem?_map, h]; rfl

theorem sim_vget_map' (f : α → β) (l : List α) (i : Nat) : Sim (fun a b => b = f a ∧ a ∈ l) (vget l i) (vget (l.map f) i) :=
  sim_vget i (fun a h => ⟨f a, by rw [List.getElem?_map, h]; rfl, rfl, List.mem_of_getElem? h⟩) fun h => by rw [List.getElem?_map, h]; rfl

variable {K : Type} [Field K] [LinearOrder K] [IsStrictOrderedRing K]

/-- Arrays of numbers, one moved by `s k` at place `k`. -/
def MovedBy (s : Nat → K) (l l' : List K) : Prop := ∀ k, l'[k]? = l[k]?.map (· + s k)

theorem movedBy_length {s : Nat → K} {l l' : List K} (h : MovedBy s l l') : l'.length = l.length := by
  have e1 := h l.length
  have e2 := h l'.length
  rw [List.getElem?_eq_none le_rfl, Option.map_none, List.getElem?_eq_none_iff] at e1
  rw [List.getElem?_eq_none le_rfl, eq_comm, Option.map_eq_none_iff, List.getElem?_eq_none_iff] at e2
  omega

theorem sim_vget_moved {s : Nat → K} {l l' : List K} (h : MovedBy s l l') (i : Nat) : Sim (fun a b => b = a + s i) (vget l i) (vget l' i) :=
  sim_vget i (fun a e => ⟨a + s i, by rw [h i, e]; rfl, rfl⟩) fun e => by rw [h i, e]; rfl

theorem sim_vset_moved {s t : Nat → K} {l l' : List K} (h : MovedBy s l l') (i : Nat) (ht : ∀ k, k ≠ i → t k = s k) {a b : K} (hab : b = a + t i) :
    Sim (MovedBy t) (vset l i a) (vset l' i b) := by
  unfold vset
  rw [movedBy_length h]
  by_cases hi : i < l.length
  · rw [if_pos hi, if_pos hi]
    intro k
    rw [List.getElem?_set, List.getElem?_set, movedBy_length h]
    by_cases hk : i = k
    · subst hk
      rw [if_pos rfl, if_pos rfl, if_pos hi, if_pos hi, hab]
      rfl
    · rw [if_neg hk, if_neg hk, ht k (Ne.symm hk)]
      exact h k
  · rw [if_neg hi, if_neg hi]
    rfl

/-- How far the places of the flat array (node, component) of `2 n` numbers are moved when `i` nodes have been written for the first, `j` for the second component. -/
def flat (v : K × K) (n i j k : Nat) : K := if k % 2 = 0 then if k / 2 < i ∨ n ≤ k / 2 then v.1 else 0 else if k / 2 < j ∨ n ≤ k / 2 then v.2 else 0

theorem flat_first (v : K × K) (n i j k : Nat) (h : k ≠ i * 2 + 0) : flat v n (i + 1) j k = flat v n i j k := by
  unfold flat
  by_cases h0 : k % 2 = 0
  · rw [if_pos h0, if_pos h0]
    by_cases h1 : k / 2 < i ∨ n ≤ k / 2
    · rw [if_pos h1, if_pos (by omega)]
    · rw [if_neg h1, if_neg (by omega)]
  · rw [if_neg h0, if_neg h0]

theorem flat_second (v : K × K) (n i j k : Nat) (h : k ≠ j * 2 + 1) : flat v n i (j + 1) k = flat v n i j k := by
  unfold flat
  by_cases h0 : k % 2 = 0
  · rw [if_pos h0, if_pos h0]
  · rw [if_neg h0, if_neg h0]
    by_cases h1 : k / 2 < j ∨ n ≤ k / 2
    · rw [if_pos h1, if_pos (by omega)]
    · rw [if_neg h1, if_neg (by omega)]

/-- All places of the array. -/
def comp2 (v : K × K) (k : Nat) : K := if k % 2 = 0 then v.1 else v.2

theorem flat_all (v : K × K) (n : Nat) : flat v n n n = comp2 v := by
  funext k
  unfold flat comp2
  by_cases h0 : k % 2 = 0
  · rw [if_pos h0, if_pos h0, if_pos (by omega)]
  · rw [if_neg h0, if_neg h0, if_pos (by omega)]

/-- One array moved, and all numbers in both meet `P`. -/
def MovedIn (P : K → Prop) (s : Nat → K) (l l' : List K) : Prop := MovedBy s l l' ∧ (∀ c ∈ l, P c) ∧ ∀ c ∈ l', P c

theorem sim_vset_in {P : K → Prop} {s t : Nat → K} {l l' : List K} (h : MovedIn P s l l') (i : Nat) (ht : ∀ k, k ≠ i → t k = s k) {a b : K} (hab : b = a + t i)
    (ha : P a) (hb : P b) : Sim (MovedIn P t) (vset l i a) (vset l' i b) := by
  have h1 := sim_vset_moved h.1 i ht hab
  unfold vset at h1 ⊢
  rw [movedBy_length h.1] at h1 ⊢
  by_cases hi : i < l.length
  · rw [if_pos hi, if_pos hi] at h1 ⊢
    refine ⟨h1, fun c hc => ?_, fun c hc => ?_⟩
    · rcases List.mem_or_eq_of_mem_set hc with h2 | h2
      · exact h.2.1 c h2
      · exact h2 ▸ ha
    · rcases List.mem_or_eq_of_mem_set hc with h2 | h2
      · exact h.2.2 c h2
      · exact h2 ▸ hb
  · rw [if_neg hi, if_neg hi]
    rfl

/-- The copy of the coordinates of all classes, with something added to each. -/
theorem sim_copy (P : K → Prop) (h0 : P 0) (v : K × K) (n : Nat) (x y : List K) (px py : Nat → K) (hx : ∀ c ∈ x, ∀ i, P (c + px i) ∧ P (c + v.1 + px i))
    (hy : ∀ c ∈ y, ∀ i, P (c + py i) ∧ P (c + v.2 + py i)) :
    Sim (MovedIn P (comp2 v))
      (do
        let l ← forN n (List.replicate (2 * n) (0 : K)) fun i l => do
          let c ← vget x i
          vset l (i * 2 + 0) (c + px i)
        forN n l fun i l => do
          let c ← vget y i
          vset l (i * 2 + 1) (c + py i) : Cxx (List K))
      (do
        let l ← forN n (List.replicate (2 * n) (0 : K)) fun i l => do
          let c ← vget (x.map (· + v.1)) i
          vset l (i * 2 + 0) (c + px i)
        forN n l fun i l => do
          let c ← vget (y.map (· + v.2)) i
          vset l (i * 2 + 1) (c + py i)) := by
  rw [← flat_all v n]
  refine sim_bind (R := MovedIn P (flat v n n 0)) (sim_forN (R := fun i => MovedIn P (flat v n i 0)) n ⟨?_, ?_, ?_⟩ ?_) ?_
  · intro k
    by_cases hk : k < 2 * n
    · have : flat v n 0 0 k = 0 := by
        unfold flat
        rw [if_neg (show ¬ (k / 2 < 0 ∨ n ≤ k / 2) by omega), if_neg (show ¬ (k / 2 < 0 ∨ n ≤ k / 2) by omega), ite_self]
      rw [this]
      cases (List.replicate (2 * n) (0 : K))[k]? <;> simp
    · rw [List.getElem?_eq_none (by rw [List.length_replicate]; omega)]
      rfl
  · intro c hc
    rw [List.eq_of_mem_replicate hc]; exact h0
  · intro c hc
    rw [List.eq_of_mem_replicate hc]; exact h0
  · intro i a b hi hab
    refine sim_bind (sim_vget_map' (· + v.1) x i) fun c c' hc => ?_
    obtain ⟨rfl, hc⟩ := hc
    refine sim_vset_in hab (i * 2 + 0) (fun k hk => flat_first v n i 0 k hk) ?_ (hx c hc i).1 (hx c hc i).2
    have : flat v n (i + 1) 0 (i * 2 + 0) = v.1 := by
      unfold flat
      rw [if_pos (by omega), if_pos (by omega)]
    rw [this]
    ring
  · intro l l' hl
    refine sim_forN (R := fun j => MovedIn P (flat v n n j)) n hl ?_
    intro i a b hi hab
    refine sim_bind (sim_vget_map' (· + v.2) y i) fun c c' hc => ?_
    obtain ⟨rfl, hc⟩ := hc
    refine sim_vset_in hab (i * 2 + 1) (fun k hk => flat_second v n n i k hk) ?_ (hy c hc i).1 (hy c hc i).2
    have : flat v n n (i + 1) (i * 2 + 1) = v.2 := by
      unfold flat
      rw [if_neg (by omega), if_pos (by omega)]
    rw [this]
    ring

/-- A moved point. -/
def mv (v p : K × K) : K × K := (p.1 + v.1, p.2 + v.2)

theorem comp2_even (v : K × K) (i : Nat) : comp2 v (i * 2 + 0) = v.1 := by
  unfold comp2
  rw [if_pos (by omega)]

theorem comp2_odd (v : K × K) (i : Nat) : comp2 v (i * 2 + 1) = v.2 := by
  unfold comp2
  rw [if_neg (by omega)]

end Sg.Shift
