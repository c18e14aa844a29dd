import Verif.Model.Octree
import Mathlib.Algebra.Order.Floor.Ring
import Mathlib.Algebra.Order.Field.Basic
import Mathlib.Tactic.Linarith
import Mathlib.Tactic.FieldSimp
import Mathlib.Tactic.Ring
import Mathlib.Algebra.Order.BigOperators.Group.Finset
namespace Sg.Octree

section anyArith
variable {F : Type} [Zero F] [One F] [Add F] [Sub F] [Mul F] [Div F] [Neg F] [LT F] [DecidableLT F]
  [HasFloor F] [NatCast F]

theorem axisIndex_le_one (fact x b : F) : axisIndex fact x b ≤ 1 := by
  unfold axisIndex; dsimp only; split <;> simp

theorem keyFrom_length {n : Nat} (x : Fin n → F) : ∀ m el b, (keyFrom x m el b).length = m
  | 0, _, _ => rfl
  | m + 1, el, b => by simp [keyFrom, keyFrom_length x m]

theorem keyFrom_take {n : Nat} (x : Fin n → F) : ∀ m k el b, k ≤ m →
    (keyFrom x m el b).take k = keyFrom x k el b
  | _, 0, _, _, _ => by simp [keyFrom]
  | 0, k + 1, _, _, h => by omega
  | m + 1, k + 1, el, b, h => by simp [keyFrom, keyFrom_take x m k _ _ (by omega)]

end anyArith

theorem prodDims_eq (n i : Nat) (h : i < n) : prodDims n i = 2 ^ (n - 1 - i) := by
  induction hk : n - 1 - i generalizing i with
  | zero => rw [prodDims, dif_neg (by omega)]; simp
  | succ k ih =>
    rw [prodDims, dif_pos (by omega), ih (i + 1) (by omega) (by omega), pow_succ]

theorem bits_sum_lt {n : Nat} (b : Fin n → Nat) (hb : ∀ j, b j ≤ 1) :
    ∑ j : Fin n, 2 ^ (n - 1 - (j : Nat)) * b j < 2 ^ n := by
  induction n with
  | zero => simp
  | succ n ih =>
    rw [Fin.sum_univ_succ]
    have := ih (fun j => b j.succ) (fun j => hb _)
    have e : ∀ j : Fin n, 2 ^ (n + 1 - 1 - ((j.succ : Fin (n+1)) : Nat)) = 2 ^ (n - 1 - (j : Nat)) := by
      intro j; congr 1; simp; omega
    simp only [e]
    have h0 := hb 0
    have : 2 ^ (n + 1 - 1 - ((0 : Fin (n+1)) : Nat)) * b 0 ≤ 2 ^ n := by
      simpa using Nat.mul_le_mul_left (2 ^ n) h0
    rw [pow_succ]; omega

theorem bits_get {n : Nat} (b : Fin n → Nat) (hb : ∀ j, b j ≤ 1) (k : Fin n) :
    (∑ j : Fin n, 2 ^ (n - 1 - (j : Nat)) * b j) / 2 ^ (n - 1 - (k : Nat)) % 2 = b k := by
  induction n with
  | zero => exact k.elim0
  | succ n ih =>
    rw [Fin.sum_univ_succ]
    have e : ∀ j : Fin n, 2 ^ (n + 1 - 1 - ((j.succ : Fin (n+1)) : Nat)) = 2 ^ (n - 1 - (j : Nat)) := by
      intro j; congr 1; simp; omega
    have hlt := bits_sum_lt (fun j => b j.succ) (fun j => hb _)
    simp only [e]
    have hp : 0 < 2 ^ n := by positivity
    refine Fin.cases ?_ ?_ k
    · simp only [Fin.val_zero, Nat.add_sub_cancel, Nat.sub_zero]
      rw [Nat.mul_add_div hp, Nat.div_eq_of_lt hlt, add_zero]
      exact Nat.mod_eq_of_lt (by have := hb 0; omega)
    · intro j
      rw [e j]
      have ihj := ih (fun j => b j.succ) (fun j => hb _) j
      have hsplit : 2 ^ (n + 1 - 1 - ((0 : Fin (n+1)) : Nat)) = 2 ^ (n - 1 - (j : Nat)) * (2 * 2 ^ (j : Nat)) := by
        rw [← pow_succ', ← pow_add]; congr 1; have := j.2; simp; omega
      rw [hsplit, mul_assoc, Nat.mul_add_div (by positivity)]
      rw [mul_assoc, Nat.add_mod, Nat.mul_mod_right, zero_add, Nat.mod_mod]
      exact ihj

theorem digit_lt {n : Nat} (b : Fin n → Nat) (hb : ∀ j, b j ≤ 1) : ∑ j : Fin n, prodDims n j * b j < 2 ^ n := by
  have : ∑ j : Fin n, prodDims n j * b j = ∑ j : Fin n, 2 ^ (n - 1 - (j : Nat)) * b j :=
    Finset.sum_congr rfl fun j _ => by rw [prodDims_eq n j j.2]
  rw [this]; exact bits_sum_lt b hb

theorem getIndices_digit {n : Nat} (b : Fin n → Nat) (hb : ∀ j, b j ≤ 1) (k : Fin n) :
    getIndices n (∑ j : Fin n, prodDims n j * b j) k = b k := by
  have : ∑ j : Fin n, prodDims n j * b j = ∑ j : Fin n, 2 ^ (n - 1 - (j : Nat)) * b j :=
    Finset.sum_congr rfl fun j _ => by rw [prodDims_eq n j j.2]
  unfold getIndices
  rw [this, prodDims_eq n k k.2]; exact bits_get b hb k

/-! ### which keys are stored -/

theorem mem_refineKeys (nq nlevs : Nat) (key k : List Nat) :
    k ∈ refineKeys nq nlevs key ↔
      ∃ t, t ≠ [] ∧ k = key ++ t ∧ (∀ q ∈ t, q < nq) ∧ (t.length = 1 ∨ key.length + t.length ≤ nlevs) := by
  induction hm : nlevs - key.length using Nat.strong_induction_on generalizing key with
  | _ m ih =>
  rw [refineKeys, List.mem_flatMap]
  constructor
  · rintro ⟨iQ, hiQ, hk⟩
    have hiQ' := List.mem_range.1 hiQ
    dsimp only at hk
    split at hk
    · rename_i h
      rcases List.mem_cons.1 hk with rfl | hk
      · exact ⟨[iQ], by simp, rfl, by simpa using hiQ', .inl rfl⟩
      · have h' : key.length + 1 < nlevs := by simpa using h
        obtain ⟨t, ht, rfl, hq, hl⟩ := (ih _ (by simp; omega) (key ++ [iQ]) rfl).1 hk
        refine ⟨iQ :: t, by simp, by simp, ?_, ?_⟩
        · intro q hq'
          rcases List.mem_cons.1 hq' with rfl | hq'
          · exact hiQ'
          · exact hq q hq'
        · right
          simp at hl ⊢
          omega
    · simp only [List.mem_singleton] at hk
      subst hk
      exact ⟨[iQ], by simp, rfl, by simpa using hiQ', .inl rfl⟩
  · rintro ⟨t, ht, rfl, hq, hl⟩
    cases t with
    | nil => exact absurd rfl ht
    | cons q t =>
      refine ⟨q, List.mem_range.2 (hq q (by simp)), ?_⟩
      dsimp only
      by_cases htn : t = []
      · subst htn
        split <;> simp
      · have hlen : 0 < t.length := List.length_pos_of_ne_nil htn
        have hl' : key.length + (t.length + 1) ≤ nlevs := by
          rcases hl with h | h
          · exact absurd (by simpa using h) htn
          · simpa using h
        rw [dif_pos (by simp; omega)]
        refine List.mem_cons_of_mem _ ?_
        rw [ih _ (by simp; omega) (key ++ [q]) rfl]
        refine ⟨t, htn, by simp, fun x hx => hq x (by simp [hx]), ?_⟩
        right; simp; omega

section field
variable {K : Type} [Field K] [LinearOrder K] [IsStrictOrderedRing K] [FloorRing K]

/-- `floor` in exact arithmetic. -/
instance instFloorK : HasFloor K := ⟨fun x => ((⌊x⌋ : ℤ) : K)⟩

omit [LinearOrder K] [IsStrictOrderedRing K] [FloorRing K] in
theorem two_pow_eq (k : Nat) : (two_pow k : K) = 2 ^ k := by
  induction k with
  | zero => simp [two_pow]
  | succ k ih => rw [two_pow, ih, pow_succ]; norm_num

omit [FloorRing K] in
theorem cmin_one_cmax_zero (v : K) : cmin 1 (cmax 0 v) = max 0 (min 1 v) := by
  unfold cmin cmax
  rcases lt_or_ge 0 v with h | h
  · rw [if_pos h]
    split
    · rename_i h1; rw [min_eq_right h1.le, max_eq_right h.le]
    · rename_i h1; rw [min_eq_left (not_lt.1 h1), max_eq_right zero_le_one]
  · rw [if_neg (not_lt.2 h), if_pos zero_lt_one, min_eq_right (h.trans zero_le_one), max_eq_left h]

theorem axisIndex_eq (fact x b : K) : axisIndex fact x b = if 1 ≤ (x - b) * fact then 1 else 0 := by
  unfold axisIndex
  dsimp only
  rw [cmin_one_cmax_zero]
  have hf : HasFloor.floor ((x - b) * fact) = ((⌊(x - b) * fact⌋ : ℤ) : K) := rfl
  rw [hf]
  by_cases h : 1 ≤ (x - b) * fact
  · rw [if_pos h]
    have h1 : (1 : ℤ) ≤ ⌊(x - b) * fact⌋ := Int.le_floor.2 (by exact_mod_cast h)
    have h2 : (1 : K) ≤ ((⌊(x - b) * fact⌋ : ℤ) : K) := by exact_mod_cast h1
    rw [min_eq_left h2, max_eq_right zero_le_one, if_neg (lt_irrefl _)]
  · rw [if_neg h]
    have h1 : ⌊(x - b) * fact⌋ < 1 := Int.floor_lt.2 (by push_cast; exact not_le.1 h)
    have h2 : ((⌊(x - b) * fact⌋ : ℤ) : K) ≤ 0 := by
      have : ⌊(x - b) * fact⌋ ≤ 0 := by omega
      exact_mod_cast this
    rw [min_eq_right (h2.trans zero_le_one), max_eq_left h2, if_pos zero_lt_one]

theorem contains_from {n : Nat} (x : Fin n → K) :
    ∀ (m el : Nat) (base hi : Fin n → K),
      (∀ j, base j ≤ x j ∧ x j ≤ hi j ∧ x j ≤ base j + 1 / 2 ^ el) →
      ∀ j, (loHiFrom (keyFrom x m el base) (1 / 2 ^ (el + 1)) base hi).1 j ≤ x j ∧
        x j ≤ (loHiFrom (keyFrom x m el base) (1 / 2 ^ (el + 1)) base hi).2 j
  | 0, el, base, hi, h, j => ⟨(h j).1, (h j).2.1⟩
  | m + 1, el, base, hi, h, j => by
    simp only [keyFrom, loHiFrom]
    have hg : ∀ k : Fin n, getIndices n (∑ j : Fin n, prodDims n j *
        axisIndex (two_pow (el + 1)) (x j) (base j)) k = axisIndex (two_pow (el + 1)) (x k) (base k) :=
      fun k => getIndices_digit _ (fun j => axisIndex_le_one _ _ _) k
    have hpow : (0 : K) < 2 ^ (el + 1) := by positivity
    have hdx : (1 : K) / 2 ^ (el + 1) / (1 + 1) = 1 / 2 ^ (el + 1 + 1) := by
      rw [pow_succ (2 : K) (el + 1)]; field_simp; norm_num
    have hbase : (fun j => base j + ((axisIndex (two_pow (el + 1)) (x j) (base j) : Nat) : K) / two_pow (el + 1))
        = fun j => base j + ((axisIndex (two_pow (el + 1)) (x j) (base j) : Nat) : K) * (1 / 2 ^ (el + 1)) := by
      funext j; rw [two_pow_eq]; ring
    simp only [hg, hdx]
    rw [hbase]
    refine contains_from x m (el + 1) _ _ ?_ j
    intro k
    obtain ⟨h1, h2, h3⟩ := h k
    have hhalf : (1 : K) / 2 ^ el = 1 / 2 ^ (el + 1) + 1 / 2 ^ (el + 1) := by
      rw [pow_succ]; field_simp; norm_num
    rw [axisIndex_eq, two_pow_eq]
    by_cases hc : 1 ≤ (x k - base k) * 2 ^ (el + 1)
    · rw [if_pos hc]
      have hc' : 1 / 2 ^ (el + 1) ≤ x k - base k := by rw [div_le_iff₀ hpow]; exact hc
      push_cast
      refine ⟨by linarith, by linarith, by linarith⟩
    · rw [if_neg hc]
      have hc' : x k - base k < 1 / 2 ^ (el + 1) := by rw [lt_div_iff₀ hpow]; exact not_le.1 hc
      push_cast
      refine ⟨by linarith, by linarith, by linarith⟩

/-- widths and recursion of `loHiFrom` from the other end -/
theorem loHiFrom_snoc {n : Nat} : ∀ (key : List Nat) (q : Nat) (dx : K) (lo hi : Fin n → K),
    loHiFrom (key ++ [q]) dx lo hi =
      ((fun j => (loHiFrom key dx lo hi).1 j + (getIndices n q j : K) * (dx / 2 ^ key.length)),
       (fun j => (loHiFrom key dx lo hi).1 j + (getIndices n q j : K) * (dx / 2 ^ key.length)
          + dx / 2 ^ key.length))
  | [], q, dx, lo, hi => by simp [loHiFrom]
  | p :: key, q, dx, lo, hi => by
    have e : dx / (1 + 1) / 2 ^ key.length = dx / 2 ^ (key.length + 1) := by
      rw [pow_succ]; field_simp; norm_num
    simp only [List.cons_append, loHiFrom, loHiFrom_snoc key q, List.length_cons, e]

theorem loHiFrom_width {n : Nat} (key : List Nat) (dx : K) (lo hi : Fin n → K)
    (h : ∀ j, hi j = lo j + 2 * dx) (j : Fin n) :
    (loHiFrom key dx lo hi).2 j = (loHiFrom key dx lo hi).1 j + 2 * (dx / 2 ^ key.length) := by
  induction key using List.reverseRecOn with
  | nil => simp [loHiFrom, h]
  | append_singleton key q _ =>
    rw [loHiFrom_snoc]
    simp only [List.length_append, List.length_singleton, pow_succ]
    field_simp

omit [FloorRing K] in
theorem bounds_spec {n : Nat} (big : K) (points : List (Fin n → K))
    (hbig : ∀ p ∈ points, ∀ j, -big ≤ p j ∧ p j ≤ big) :
    ∀ p ∈ points, ∀ j, (bounds big points).1 j ≤ p j ∧ p j ≤ (bounds big points).2 j := by
  have gen : ∀ (pts : List (Fin n → K)) (lo hi : Fin n → K),
      let r := pts.foldl (fun (lohi : (Fin n → K) × (Fin n → K)) p => (fun j => if p j < lohi.1 j then p j else lohi.1 j,
                               fun j => if lohi.2 j < p j then p j else lohi.2 j)) (lo, hi)
      (∀ j, r.1 j ≤ lo j ∧ hi j ≤ r.2 j) ∧ ∀ p ∈ pts, ∀ j, r.1 j ≤ p j ∧ p j ≤ r.2 j := by
    intro pts
    induction pts with
    | nil => intro lo hi; simp
    | cons p pts ih =>
      intro lo hi
      obtain ⟨h1, h2⟩ := ih (fun j => if p j < lo j then p j else lo j)
        (fun j => if hi j < p j then p j else hi j)
      simp only [List.foldl_cons]
      refine ⟨fun j => ?_, ?_⟩
      · obtain ⟨a, b⟩ := h1 j
        refine ⟨a.trans ?_, le_trans ?_ b⟩
        · split_ifs with h
          · exact h.le
          · exact le_refl _
        · split_ifs with h
          · exact h.le
          · exact le_refl _
      · intro p' hp' j
        rcases List.mem_cons.1 hp' with rfl | hp'
        · obtain ⟨a, b⟩ := h1 j
          refine ⟨a.trans ?_, le_trans ?_ b⟩
          · split_ifs with h
            · exact le_refl _
            · exact not_lt.1 h
          · split_ifs with h
            · exact le_refl _
            · exact not_lt.1 h
        · exact h2 p' hp' j
  exact (gen points _ _).2

/-- A lookup in the built tree. -/
theorem find_build {n : Nat} (xmins xmaxs : Fin n → K) (nlevs : Nat) (key : List Nat) :
    (build xmins xmaxs nlevs).find key =
      if key ∈ refineKeys (2 ^ n) nlevs [] then some (computeLoHi xmins xmaxs key) else none := by
  unfold Tree.find build
  generalize refineKeys (2 ^ n) nlevs [] = l
  dsimp only
  induction l with
  | nil => simp
  | cons a l ih =>
    simp only [List.map_cons, List.find?_cons]
    by_cases h : a = key
    · subst h; simp
    · have h' : ¬ key = a := fun e => h e.symm
      simp only [h, decide_false, List.mem_cons, h', false_or]
      exact ih

theorem computeLoHi_nil {n : Nat} (xmins xmaxs : Fin n → K) :
    computeLoHi xmins xmaxs [] = (xmins, xmaxs) := by
  simp [computeLoHi, loHiFrom]

/-- Stored or not, the box of a key of admissible length is the computed one. -/
theorem getLoHi_build {n : Nat} (xmins xmaxs : Fin n → K) (nlevs : Nat) (key : List Nat)
    (hl : key.length ≤ nlevs) (hq : ∀ q ∈ key, q < 2 ^ n) :
    (build xmins xmaxs nlevs).getLo key = (computeLoHi xmins xmaxs key).1 ∧
    (build xmins xmaxs nlevs).getHi key = (computeLoHi xmins xmaxs key).2 := by
  unfold Tree.getLo Tree.getHi
  rw [find_build]
  by_cases hk : key = []
  · subst hk
    rw [if_neg (by rw [mem_refineKeys]; rintro ⟨t, ht, h, _⟩; exact ht (by simpa using h.symm)),
      computeLoHi_nil]
    exact ⟨rfl, rfl⟩
  · rw [if_pos ((mem_refineKeys _ _ _ _).2 ⟨key, hk, by simp, hq, .inr (by simpa using hl)⟩)]
    exact ⟨rfl, rfl⟩

theorem keyFrom_digits {F : Type} [Zero F] [One F] [Add F] [Sub F] [Mul F] [Div F] [Neg F] [LT F]
    [DecidableLT F] [HasFloor F] [NatCast F] {n : Nat} (x : Fin n → F) :
    ∀ m el b, ∀ q ∈ keyFrom x m el b, q < 2 ^ n
  | 0, _, _, q, h => by simp [keyFrom] at h
  | m + 1, el, b, q, h => by
    rw [keyFrom] at h
    rcases List.mem_cons.1 h with rfl | h
    · exact digit_lt _ (fun j => axisIndex_le_one _ _ _)
    · exact keyFrom_digits x m _ _ q h

theorem normalise_eq {n : Nat} (xmins xmaxs p : Fin n → K) (j : Fin n) :
    normalise xmins xmaxs p j = max 0 (min 1 ((p j - xmins j) / (xmaxs j - xmins j))) := by
  unfold normalise; exact cmin_one_cmax_zero _

theorem contains_domain {n : Nat} (xmins xmaxs p : Fin n → K) (lev : Nat)
    (hp : ∀ j, xmins j ≤ p j ∧ p j ≤ xmaxs j) (j : Fin n) :
    (computeLoHi xmins xmaxs (getKey xmins xmaxs p lev)).1 j ≤ p j ∧
    p j ≤ (computeLoHi xmins xmaxs (getKey xmins xmaxs p lev)).2 j := by
  have h0 := contains_from (normalise xmins xmaxs p) lev 0 (fun _ => 0) (fun _ => 1) (by
    intro k
    rw [normalise_eq]
    refine ⟨le_max_left _ _, max_le zero_le_one (min_le_left _ _), ?_⟩
    simpa using min_le_left _ _) j
  have e : (1 : K) / 2 ^ (0 + 1) = 1 / (1 + 1) := by norm_num
  rw [e] at h0
  unfold computeLoHi getKey
  dsimp only
  revert h0
  generalize (loHiFrom (keyFrom (normalise xmins xmaxs p) lev 0 fun _ => 0) (1 / (1 + 1)) (fun _ => 0) fun _ => (1 : K)) = r
  intro h0
  obtain ⟨a, b⟩ := hp j
  have hnn : 0 ≤ xmaxs j - xmins j := by linarith
  have hx : normalise xmins xmaxs p j * (xmaxs j - xmins j) = p j - xmins j := by
    rw [normalise_eq]
    rcases hnn.eq_or_lt with h | h
    · rw [← h]; simp; linarith
    · have h1 : (p j - xmins j) / (xmaxs j - xmins j) ≤ 1 := by rw [div_le_one h]; linarith
      have h2 : 0 ≤ (p j - xmins j) / (xmaxs j - xmins j) := div_nonneg (by linarith) hnn
      rw [min_eq_right h1, max_eq_right h2, div_mul_cancel₀ _ h.ne']
  constructor
  · have := mul_le_mul_of_nonneg_right h0.1 hnn; linarith
  · have := mul_le_mul_of_nonneg_right h0.2 hnn; linarith

end field
end Sg.Octree
