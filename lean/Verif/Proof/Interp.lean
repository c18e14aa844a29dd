import Verif.Spec.Interp
import Verif.Proof.Cxx
import Mathlib.Algebra.BigOperators.Ring.Finset
import Mathlib.Algebra.BigOperators.Intervals
import Mathlib.Algebra.Order.BigOperators.Group.Finset
import Mathlib.Algebra.Order.BigOperators.Ring.Finset
import Mathlib.Tactic.Linarith
import Mathlib.Tactic.FieldSimp
import Mathlib.Tactic.Ring
namespace Sg.FindPoint
open Sg.Spec

/-! ### bits of corner numbers -/

/-- which side of the cell corner `j` is on, along axis `i` -/
def bit (n j : Nat) (i : Fin n) : Nat := j / 2 ^ (n - 1 - (i : Nat)) % 2

theorem bit_lt (n j : Nat) (i : Fin n) : bit n j i < 2 := Nat.mod_lt _ (by norm_num)

theorem nodeProdDims_eq (n i : Nat) (h : i < n) : nodeProdDims n i = 2 ^ (n - 1 - i) := by
  induction hk : n - 1 - i generalizing i with
  | zero => rw [nodeProdDims, dif_neg (by omega)]; simp
  | succ k ih => rw [nodeProdDims, dif_pos (by omega), ih (i + 1) (by omega) (by omega), pow_succ]

theorem bit_zero_lo {n j : Nat} (h : j < 2 ^ n) : bit (n + 1) j 0 = 0 := by
  simp [bit, Nat.div_eq_of_lt h]

theorem bit_zero_hi {n j : Nat} (h : j < 2 ^ n) : bit (n + 1) (2 ^ n + j) 0 = 1 := by
  have hp : 0 < 2 ^ n := by positivity
  simp only [bit, Fin.val_zero, Nat.add_sub_cancel, Nat.sub_zero]
  rw [Nat.add_div_left _ hp, Nat.div_eq_of_lt h]

theorem bit_succ_lo {n j : Nat} (i : Fin n) : bit (n + 1) j i.succ = bit n j i := by
  unfold bit
  congr 3
  simp; omega

theorem bit_succ_hi {n j : Nat} (i : Fin n) : bit (n + 1) (2 ^ n + j) i.succ = bit n j i := by
  rw [bit_succ_lo]
  unfold bit
  have : 2 ^ n = 2 ^ (n - 1 - (i : Nat)) * (2 * 2 ^ (i : Nat)) := by
    rw [← pow_succ', ← pow_add]; congr 1; have := i.2; omega
  rw [this, Nat.mul_add_div (by positivity), Nat.add_mod, Nat.mul_mod_right, zero_add, Nat.mod_mod]

theorem sum_corners {R : Type} [CommSemiring R] : ∀ (n : Nat) (f : Fin n → Nat → R),
    ∑ j ∈ Finset.range (2 ^ n), ∏ i, f i (bit n j i) = ∏ i, (f i 0 + f i 1)
  | 0, f => by simp
  | n + 1, f => by
    have h2 : 2 ^ (n + 1) = 2 ^ n + 2 ^ n := by ring
    rw [h2, Finset.sum_range_add, Fin.prod_univ_succ, add_mul, ← sum_corners n (fun i => f i.succ),
      Finset.mul_sum, Finset.mul_sum]
    congr 1
    · refine Finset.sum_congr rfl fun j hj => ?_
      rw [Fin.prod_univ_succ, bit_zero_lo (Finset.mem_range.1 hj)]
      simp only [bit_succ_lo]
    · refine Finset.sum_congr rfl fun j hj => ?_
      rw [Fin.prod_univ_succ, bit_zero_hi (Finset.mem_range.1 hj)]
      simp only [bit_succ_hi]

/-- the corner with given sides -/
theorem exists_corner : ∀ (n : Nat) (b : Fin n → Nat), (∀ i, b i < 2) →
    ∃ j < 2 ^ n, ∀ i, bit n j i = b i
  | 0, b, _ => ⟨0, by simp, fun i => i.elim0⟩
  | n + 1, b, hb => by
    obtain ⟨j, hj, hi⟩ := exists_corner n (fun i => b i.succ) (fun i => hb _)
    have h2 : 2 ^ (n + 1) = 2 ^ n + 2 ^ n := by ring
    have : b 0 = 0 ∨ b 0 = 1 := by have := hb 0; omega
    rcases this with h0 | h0
    · exact ⟨j, by omega, Fin.cases (by rw [bit_zero_lo hj, h0]) fun i => by rw [bit_succ_lo, hi]⟩
    · exact ⟨2 ^ n + j, by omega, Fin.cases (by rw [bit_zero_hi hj, h0]) fun i => by rw [bit_succ_hi, hi]⟩

theorem corner_inj : ∀ (n j k : Nat), j < 2 ^ n → k < 2 ^ n → (∀ i, bit n j i = bit n k i) → j = k
  | 0, j, k, hj, hk, _ => by simp at hj hk; omega
  | n + 1, j, k, hj, hk, h => by
    have h2 : 2 ^ (n + 1) = 2 ^ n + 2 ^ n := by ring
    have h0 := h 0
    rcases Nat.lt_or_ge j (2 ^ n) with hj' | hj' <;> rcases Nat.lt_or_ge k (2 ^ n) with hk' | hk'
    · exact corner_inj n j k hj' hk' fun i => by have := h i.succ; rwa [bit_succ_lo, bit_succ_lo] at this
    · obtain ⟨k', rfl⟩ := Nat.exists_eq_add_of_le hk'
      rw [bit_zero_lo hj', bit_zero_hi (by omega)] at h0; omega
    · obtain ⟨j', rfl⟩ := Nat.exists_eq_add_of_le hj'
      rw [bit_zero_lo hk', bit_zero_hi (by omega)] at h0; omega
    · obtain ⟨k', rfl⟩ := Nat.exists_eq_add_of_le hk'
      obtain ⟨j', rfl⟩ := Nat.exists_eq_add_of_le hj'
      have := corner_inj n j' k' (by omega) (by omega) fun i => by
        have := h i.succ; rwa [bit_succ_hi, bit_succ_hi] at this
      omega

/-! ### row-major indices -/

theorem prodDims_succ {n : Nat} (d : Fin (n + 1) → Nat) (i : Nat) :
    prodDims d (i + 1) = prodDims (fun k : Fin n => d k.succ) i := by
  induction hk : n - i generalizing i with
  | zero =>
    have h1 : prodDims d (i + 1) = 1 := by rw [prodDims, dif_neg (by omega)]
    have h2 : prodDims (fun k : Fin n => d k.succ) i = 1 := by rw [prodDims, dif_neg (by omega)]
    rw [h1, h2]
  | succ m ih =>
    by_cases h : i + 1 < n
    · have h1 : prodDims d (i + 1) = prodDims d (i + 1 + 1) * d ⟨i + 1 + 1, by omega⟩ := by
        conv_lhs => rw [prodDims, dif_pos (show i + 1 + 1 < n + 1 by omega)]
      have h2 : prodDims (fun k : Fin n => d k.succ) i =
          prodDims (fun k : Fin n => d k.succ) (i + 1) * d ⟨i + 1 + 1, by omega⟩ := by
        conv_lhs => rw [prodDims, dif_pos h]
        rfl
      rw [h1, h2, ih (i + 1) (by omega)]
    · have h1 : prodDims d (i + 1) = 1 := by rw [prodDims, dif_neg (by omega)]
      have h2 : prodDims (fun k : Fin n => d k.succ) i = 1 := by rw [prodDims, dif_neg (by omega)]
      rw [h1, h2]

theorem prodDims_zero : ∀ {n : Nat} (d : Fin (n + 1) → Nat), prodDims d 0 = ∏ k : Fin n, d k.succ
  | 0, d => by rw [prodDims, dif_neg (by omega)]; simp
  | n + 1, d => by
    rw [prodDims, dif_pos (by omega), prodDims_succ, prodDims_zero, Fin.prod_univ_succ, mul_comm]
    rfl

theorem prodDims_eq : ∀ {n : Nat} (d : Fin n → Nat) (i : Fin n),
    prodDims d i = ∏ k ∈ Finset.univ.filter (i < ·), d k
  | 0, d, i => i.elim0
  | n + 1, d, i => by
    refine Fin.cases ?_ (fun i => ?_) i
    · rw [Fin.val_zero, prodDims_zero]
      symm
      rw [Finset.prod_filter, Fin.prod_univ_succ]
      simp
    · rw [Fin.val_succ, prodDims_succ, prodDims_eq]
      rw [Finset.prod_filter, Finset.prod_filter, Fin.prod_univ_succ]
      simp [Fin.succ_lt_succ_iff]

theorem rowMajor_succ {n : Nat} (d m : Fin (n + 1) → Nat) :
    rowMajor d m = m 0 * (∏ k : Fin n, d k.succ) + rowMajor (fun k => d k.succ) (fun k => m k.succ) := by
  unfold rowMajor
  rw [Fin.sum_univ_succ]
  congr 1
  · rw [← prodDims_eq d 0, Fin.val_zero, prodDims_zero]
  · refine Finset.sum_congr rfl fun i _ => ?_
    rw [← prodDims_eq d i.succ, Fin.val_succ, prodDims_succ, prodDims_eq]

theorem rowMajor_lt : ∀ {n : Nat} (d m : Fin n → Nat), (∀ i, m i < d i) → rowMajor d m < ∏ i, d i
  | 0, d, m, _ => by simp [rowMajor]
  | n + 1, d, m, h => by
    rw [rowMajor_succ, Fin.prod_univ_succ]
    have h1 := rowMajor_lt (fun k => d k.succ) (fun k => m k.succ) (fun i => h _)
    have h2 : (m 0 + 1) * (∏ k : Fin n, d k.succ) ≤ d 0 * (∏ k : Fin n, d k.succ) :=
      Nat.mul_le_mul_right _ (h 0)
    rw [Nat.add_mul] at h2
    omega

theorem rowMajor_inj : ∀ {n : Nat} (d m m' : Fin n → Nat), (∀ i, m i < d i) → (∀ i, m' i < d i) →
    rowMajor d m = rowMajor d m' → m = m'
  | 0, d, m, m', _, _, _ => funext fun i => i.elim0
  | n + 1, d, m, m', h, h', he => by
    rw [rowMajor_succ, rowMajor_succ] at he
    have h1 := rowMajor_lt (fun k => d k.succ) (fun k => m k.succ) (fun i => h _)
    have h2 := rowMajor_lt (fun k => d k.succ) (fun k => m' k.succ) (fun i => h' _)
    set P := ∏ k : Fin n, d k.succ with hP
    have e0 : m 0 = m' 0 := by
      have a1 : (m 0 * P + rowMajor (fun k => d k.succ) (fun k => m k.succ)) / P = m 0 := by
        rw [Nat.add_comm, Nat.add_mul_div_right _ _ (by omega), Nat.div_eq_of_lt h1, Nat.zero_add]
      have a2 : (m' 0 * P + rowMajor (fun k => d k.succ) (fun k => m' k.succ)) / P = m' 0 := by
        rw [Nat.add_comm, Nat.add_mul_div_right _ _ (by omega), Nat.div_eq_of_lt h2, Nat.zero_add]
      rw [← a1, ← a2, he]
    have e1 := rowMajor_inj (fun k => d k.succ) (fun k => m k.succ) (fun k => m' k.succ) (fun i => h _) (fun i => h' _)
      (by rw [e0] at he; omega)
    funext i
    refine Fin.cases e0 (fun i => congrFun e1 i) i

/-! ### collecting per-axis results -/

theorem forAxes_ok {α : Type} : ∀ {n : Nat} (f : Fin n → Cxx α) (v : Fin n → α), (∀ i, f i = .ok (v i)) →
    forAxes f = .ok v
  | 0, f, v, _ => by simp only [forAxes]; congr 1; funext i; exact i.elim0
  | n + 1, f, v, h => by
    simp only [forAxes, h 0, forAxes_ok (fun i => f i.succ) (fun i => v i.succ) (fun i => h _)]
    congr 1
    funext i
    refine Fin.cases rfl (fun i => rfl) i

theorem forAxes_inv {α : Type} : ∀ {n : Nat} (f : Fin n → Cxx α) (v : Fin n → α), forAxes f = .ok v →
    ∀ i, f i = .ok (v i)
  | 0, f, v, _, i => i.elim0
  | n + 1, f, v, h, i => by
    simp only [forAxes] at h
    cases h0 : f 0 with
    | error e => rw [h0] at h; cases h
    | ok a =>
      rw [h0] at h
      dsimp only at h
      cases h1 : forAxes (fun i => f i.succ) with
      | error e => rw [h1] at h; cases h
      | ok r =>
        rw [h1] at h
        simp only [Except.ok.injEq] at h
        subst h
        refine Fin.cases h0 (fun i => ?_) i
        exact forAxes_inv (fun i => f i.succ) r h1 i

/-! ### exact arithmetic -/
section field
set_option linter.unusedSectionVars false
variable {K : Type} [Field K] [LinearOrder K] [IsStrictOrderedRing K] [FloorRing K] [FOps K] [FOpsLaws K] {n : Nat}

theorem cellLo_bounds (dims : Fin n → Nat) (hd : GoodDims dims) (d : Fin n → K) (h : InGrid dims d) (i : Fin n) :
    (cellLo dims d i : K) ≤ d i ∧ d i ≤ (cellLo dims d i : K) + 1 ∧ cellLo dims d i + 2 ≤ dims i := by
  obtain ⟨h0, h1⟩ := h i
  obtain ⟨h2, _⟩ := hd i
  have hf : 0 ≤ ⌊d i⌋ := Int.floor_nonneg.2 h0
  have hft : ((⌊d i⌋.toNat : Nat) : Int) = ⌊d i⌋ := Int.toNat_of_nonneg hf
  have hfK : ((⌊d i⌋.toNat : Nat) : K) = ((⌊d i⌋ : Int) : K) := by
    rw [← Int.cast_natCast, hft]
  have hfl := Int.floor_le (d i)
  have hlt := Int.lt_floor_add_one (d i)
  unfold cellLo
  rcases Nat.le_total ⌊d i⌋.toNat (dims i - 2) with hc | hc
  · rw [min_eq_left hc, hfK]
    exact ⟨hfl, hlt.le, by omega⟩
  · rw [min_eq_right hc]
    have e : ((dims i - 2 : Nat) : K) = (dims i : K) - 2 := by push_cast [Nat.cast_sub h2]; ring
    refine ⟨?_, ?_, by omega⟩
    · have : ((dims i - 2 : Nat) : K) ≤ ((⌊d i⌋.toNat : Nat) : K) := by exact_mod_cast hc
      rw [hfK] at this; linarith
    · rw [e]; linarith

theorem floorI_ok (dims : Fin n → Nat) (hd : GoodDims dims) (d : Fin n → K) (h : InGrid dims d) (i : Fin n) :
    FOps.floorI (d i) = some ⌊d i⌋ := by
  apply FOpsLaws.floorI
  obtain ⟨h0, h1⟩ := h i
  obtain ⟨_, h2⟩ := hd i
  have hf : 0 ≤ ⌊d i⌋ := Int.floor_nonneg.2 h0
  have : ⌊d i⌋ ≤ (dims i : Int) - 1 := by
    have h3 : ((⌊d i⌋ : Int) : K) ≤ (((dims i : Int) - 1 : Int) : K) := by
      push_cast; exact (Int.floor_le _).trans h1
    exact_mod_cast h3
  constructor <;> omega

theorem loCorners_ok (dims : Fin n → Nat) (hd : GoodDims dims) (d : Fin n → K) (h : InGrid dims d) :
    loCorners dims d = .ok fun i => (cellLo dims d i : Int) := by
  unfold loCorners
  have hs : ∀ i, (FOps.floorI (d i)).isSome := fun i => by rw [floorI_ok dims hd d h i]; rfl
  rw [dif_pos hs]
  congr 1
  funext i
  have : (FOps.floorI (d i)).get (hs i) = ⌊d i⌋ := by
    rw [Option.get_of_eq_some _ (floorI_ok dims hd d h i)]
  rw [this]
  have hf : 0 ≤ ⌊d i⌋ := Int.floor_nonneg.2 (h i).1
  have h2 := (hd i).1
  unfold loCorner cellLo
  dsimp only
  rw [if_pos hf]
  split <;> omega

/-- weight along one axis of the low and high side -/
def sideWeight (dims : Fin n → Nat) (d : Fin n → K) (i : Fin n) (b : Nat) : K :=
  if b = 0 then (cellLo dims d i : K) + 1 - d i else d i - (cellLo dims d i : K)

theorem axisWeight_eq (dims : Fin n → Nat) (hd : GoodDims dims) (d : Fin n → K) (h : InGrid dims d) (i : Fin n)
    (b : Nat) (hb : b < 2) :
    axisWeight (d i) ((cellLo dims d i : Int) + (b : Int)) = sideWeight dims d i b := by
  obtain ⟨h0, h1, _⟩ := cellLo_bounds dims hd d h i
  unfold axisWeight sideWeight
  dsimp only
  have : b = 0 ∨ b = 1 := by omega
  rcases this with rfl | rfl
  · simp only [Nat.cast_zero, add_zero, Int.cast_natCast, if_true]
    rw [if_pos h0]
  · rw [if_neg one_ne_zero]
    push_cast
    split_ifs with hc
    · linarith
    · ring

/-- node index of corner `j` along axis `i` -/
def cornerNode (dims : Fin n → Nat) (d : Fin n → K) (j : Nat) : Fin n → Nat :=
  fun i => cellLo dims d i + bit n j i

theorem cornerNode_lt (dims : Fin n → Nat) (hd : GoodDims dims) (d : Fin n → K) (h : InGrid dims d) (j : Nat)
    (i : Fin n) : cornerNode dims d j i < dims i := by
  have := (cellLo_bounds dims hd d h i).2.2
  have := bit_lt n j i
  unfold cornerNode; omega

theorem foldl_mul_prod {R : Type} [CommMonoid R] (f : Fin n → R) :
    (List.finRange n).foldl (fun w i => w * f i) 1 = ∏ i, f i := by
  have : ∀ (l : List (Fin n)) (c : R), l.foldl (fun w i => w * f i) c = c * (l.map f).prod := by
    intro l
    induction l with
    | nil => intro c; simp
    | cons a l ih => intro c; simp [ih, mul_assoc]
  rw [this, one_mul, ← List.ofFn_eq_map, List.prod_ofFn]

theorem cornerIndexWeight_eq (dims : Fin n → Nat) (hd : GoodDims dims) (d : Fin n → K) (h : InGrid dims d) (j : Nat) :
    cornerIndexWeight dims d (fun i => (cellLo dims d i : Int)) j =
      ((rowMajor dims (cornerNode dims d j) : Int), ∏ i, sideWeight dims d i (bit n j i)) := by
  have hb : ∀ i : Fin n, j / nodeProdDims n i % 2 = bit n j i := by
    intro i; rw [nodeProdDims_eq n i i.2]; rfl
  unfold cornerIndexWeight
  dsimp only
  congr 1
  · unfold rowMajor cornerNode
    rw [Nat.cast_sum]
    refine Finset.sum_congr rfl fun i _ => ?_
    rw [hb, prodDims_eq]
    push_cast
    ring
  · rw [foldl_mul_prod (fun i => axisWeight (d i) ((cellLo dims d i : Int) + ((j / nodeProdDims n i % 2 : Nat) : Int)))]
    refine Finset.prod_congr rfl fun i _ => ?_
    rw [hb, axisWeight_eq dims hd d h i _ (bit_lt n j i)]

theorem getSrc_ok (dims : Fin n → Nat) (hd : GoodDims dims) (d : Fin n → K) (h : InGrid dims d) :
    getSrcIndicesAndWeights dims d = .ok ((List.range (2 ^ n)).map fun j =>
      ((rowMajor dims (cornerNode dims d j) : Int), ∏ i, sideWeight dims d i (bit n j i))) := by
  unfold getSrcIndicesAndWeights
  rw [loCorners_ok dims hd d h]
  simp only [bind, Except.bind, pure, Except.pure]
  congr 1
  exact List.map_congr_left fun j _ => cornerIndexWeight_eq dims hd d h j

theorem interp_ok (dims : Fin n → Nat) (hd : GoodDims dims) (d : Fin n → K) (h : InGrid dims d)
    (field : List K) (hf : field.length = ∏ i, dims i) :
    interp dims d field = .ok (∑ j ∈ Finset.range (2 ^ n),
      (∏ i, sideWeight dims d i (bit n j i)) * field.getD (rowMajor dims (cornerNode dims d j)) 0) := by
  unfold interp
  rw [getSrc_ok dims hd d h]
  simp only [bind, Except.bind]
  have hrd : ∀ j, vgetI field (rowMajor dims (cornerNode dims d j) : Int) =
      .ok (field.getD (rowMajor dims (cornerNode dims d j)) 0) := by
    intro j
    have hlt := rowMajor_lt dims _ (cornerNode_lt dims hd d h j)
    unfold vgetI
    rw [if_pos (Int.natCast_nonneg _), Int.toNat_natCast, vget_ok (by omega)]
    simp [List.getD, List.getElem?_eq_getElem (show rowMajor dims (cornerNode dims d j) < field.length by omega)]
  have gen : ∀ (l : List Nat) (c : K), (l.map fun j =>
      ((rowMajor dims (cornerNode dims d j) : Int), ∏ i, sideWeight dims d i (bit n j i))).foldlM
        (fun res e => Except.bind (vgetI field e.1) fun v => (pure (res + e.2 * v) : Cxx K)) c
      = .ok (c + (l.map fun j => (∏ i, sideWeight dims d i (bit n j i)) *
          field.getD (rowMajor dims (cornerNode dims d j)) 0).sum) := by
    intro l
    induction l with
    | nil => intro c; simp [pure, Except.pure]
    | cons a l ih =>
      intro c
      simp only [List.map_cons, List.foldlM_cons, hrd, List.sum_cons, bind, Except.bind, pure, Except.pure] at ih ⊢
      rw [ih, add_assoc]
  have := gen (List.range (2 ^ n)) 0
  simp only [pure, Except.pure, Except.bind] at this ⊢
  rw [this, zero_add, ← Finset.sum_map_val, Finset.range_val, Multiset.range, Multiset.map_coe, Multiset.sum_coe]

end field
end Sg.FindPoint
