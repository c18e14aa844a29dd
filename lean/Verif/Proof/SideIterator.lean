import Verif.Model.SideIterator
import Verif.Spec.Side
import Verif.Proof.BoxIterator
import Mathlib.Tactic.IntervalCases
import Mathlib.Tactic.Zify
/- Base-3 digits behind the side iterator. -/
namespace Sg.SideIterator
open Sg.Spec Sg.BoxIterator

/-- the powers 3^(n-1), ..., 3, 1 -/
def pows : Nat → List Nat
  | 0 => []
  | n + 1 => 3 ^ n :: pows n

theorem wrap_of_lt {n : Nat} (h : n < 18446744073709551616) : wrap n = n := Nat.mod_eq_of_lt h

theorem mkNumElems_eq : ∀ n, 3 ^ n < 18446744073709551616 → mkNumElems n = 3 ^ n
  | 0, _ => rfl
  | n + 1, h => by
    have h1 : 3 ^ n * 3 < 18446744073709551616 := by rw [← pow_succ]; exact h
    rw [mkNumElems, mkNumElems_eq n (by omega), wrap_of_lt h1, pow_succ]

theorem mkProdDims_eq : ∀ n, 3 ^ n < 18446744073709551616 → mkProdDims n = pows n
  | 0, _ => rfl
  | 1, _ => rfl
  | n + 2, h => by
    have h1 : 3 ^ (n + 1) * 3 < 18446744073709551616 := by rw [← pow_succ]; exact h
    have h2 : 3 ^ n * 3 < 18446744073709551616 := by rw [← pow_succ]; omega
    simp only [mkProdDims, mkProdDims_eq (n + 1) (by omega), pows, List.headD_cons, wrap_of_lt h2,
      pow_succ]

theorem digit_conv (r : Nat) (h : r < 3) :
    toInt (wrap (18446744073709551615 + r)) = (r : Int) - 1 := by
  interval_cases r <;> decide

theorem get_pows (k N : Nat) (n : Nat) : (SideIt.mk k N (pows n)).get =
    .ok ((dig (k : Int) (List.replicate n 3)).map (· - 1)) := by
  unfold SideIt.get
  simp only
  induction n with
  | zero => rfl
  | succ n ih =>
    have hp : ¬ (3 ^ n = 0) := by positivity
    simp only [pows, List.mapM_cons, if_neg hp, ih, bind, Except.bind, pure, Except.pure,
      List.replicate_succ, dig, List.map_cons, List.prod_replicate]
    rw [digit_conv _ (Nat.mod_lt _ (by norm_num))]
    push_cast
    rfl

theorem three_pos (n : Nat) : ∀ d ∈ List.replicate n (3 : Int), 0 < d := by
  intro d hd; rw [List.eq_of_mem_replicate hd]; norm_num

theorem isSide_iff {n : Nat} {v : List Int} : IsSide n v ↔
    List.Forall₂ (fun d x => 0 ≤ x ∧ x < d) (List.replicate n (3 : Int)) (v.map (· + 1)) := by
  constructor
  · rintro ⟨hl, hv⟩
    subst hl
    induction v with
    | nil => exact .nil
    | cons x v ih =>
      refine .cons ?_ (ih fun y hy => hv y (by simp [hy]))
      have := hv x (by simp)
      simp only; omega
  · intro h
    induction n generalizing v with
    | zero => cases v with
      | nil => exact ⟨rfl, by simp⟩
      | cons => cases h
    | succ n ih => cases v with
      | nil => cases h
      | cons x v =>
        cases h with
        | cons hx h =>
          obtain ⟨h1, h2⟩ := ih h
          refine ⟨by simp [h1], ?_⟩
          intro y hy
          rcases List.mem_cons.1 hy with rfl | hy
          · simp only at hx; omega
          · exact h2 y hy

theorem map_pred_lt : ∀ (xs ys : List Int), xs < ys → xs.map (· - 1) < ys.map (· - 1)
  | _, [], h => absurd h (List.not_lt_nil _)
  | [], _ :: _, _ => List.Lex.nil
  | x :: xs, y :: ys, h => by
    rcases List.cons_lt_cons_iff.1 h with h | ⟨rfl, h'⟩
    · exact List.Lex.rel (by simp only; omega)
    · exact List.Lex.cons (map_pred_lt xs ys h')

/-- the k-th side -/
def side (n k : Nat) : List Int := (dig (k : Int) (List.replicate n 3)).map (· - 1)

theorem side_lt {n i j : Nat} (hij : i < j) (hj : j < 3 ^ n) : side n i < side n j := by
  refine map_pred_lt _ _ (dig_lt _ _ _ (three_pos n) (by omega) (by omega) ?_)
  rw [List.prod_replicate]; exact_mod_cast hj

theorem side_isSide (n k : Nat) : IsSide n (side n k) := by
  rw [isSide_iff, side, List.map_map]
  have : ((fun x : Int => x + 1) ∘ fun x => x - 1) = id := by funext x; simp
  rw [this, List.map_id]
  exact dig_forall2 _ _ (three_pos n)

theorem exists_side {n : Nat} {v : List Int} (h : IsSide n v) : ∃ k < 3 ^ n, side n k = v := by
  rw [isSide_iff] at h
  have ⟨h1, h2⟩ := enc_bound _ _ h
  have h3 := dig_enc _ _ h
  rw [List.prod_replicate] at h2
  refine ⟨(enc (List.replicate n (3 : Int)) (v.map (· + 1))).toNat, ?_, ?_⟩
  · zify; rw [Int.toNat_of_nonneg h1]; exact h2
  · rw [side, Int.toNat_of_nonneg h1, h3, List.map_map]
    have : ((fun x : Int => x - 1) ∘ fun x => x + 1) = id := by funext x; simp
    rw [this, List.map_id]

/-- what the visiting loop returns from index `k` -/
theorem visit_from (n : Nat) (hn : 3 ^ n < 18446744073709551616) :
    ∀ (m k fuel : Nat), k + m + 1 = 3 ^ n → m < fuel →
      visit fuel ⟨k, 3 ^ n, pows n⟩ = .ok ((List.range' k (m + 1)).map (side n))
  | m, k, 0, _, hf => by omega
  | 0, k, fuel + 1, hk, _ => by
    have h1 : wrap (k + 1) = k + 1 := wrap_of_lt (by omega)
    have h2 : ¬ (k + 1 < 3 ^ n) := by omega
    simp only [visit, get_pows, bind, Except.bind, SideIt.next, h1, if_neg h2]
    simp [pure, Except.pure, side, List.range']
  | m + 1, k, fuel + 1, hk, hf => by
    have h1 : wrap (k + 1) = k + 1 := wrap_of_lt (by omega)
    have h2 : k + 1 < 3 ^ n := by omega
    have ih := visit_from n hn m (k + 1) fuel (by omega) (by omega)
    simp only [visit, get_pows, bind, Except.bind, SideIt.next, h1, if_pos h2, if_true, ih, pure,
      Except.pure]
    rw [List.range'_succ, List.map_cons]
    rfl

/-- what the counting loop returns from index `k` -/
theorem sweep_from (n : Nat) (hn : 3 ^ n < 18446744073709551616) :
    ∀ (m k : Nat), k + m ≤ 3 ^ n →
      sweep m ⟨k, 3 ^ n, pows n⟩ = .ok ((List.range' k m).map (side n))
  | 0, k, _ => rfl
  | m + 1, k, hk => by
    have h1 : wrap (k + 1) = k + 1 := wrap_of_lt (by omega)
    have ih := sweep_from n hn m (k + 1) (by omega)
    simp only [sweep, get_pows, bind, Except.bind, SideIt.next, h1, ih, pure, Except.pure]
    rw [List.range'_succ, List.map_cons]
    rfl

end Sg.SideIterator
