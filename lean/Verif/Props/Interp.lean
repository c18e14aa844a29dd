import Verif.Proof.Interp
import Mathlib.Analysis.Real.Sqrt
import Mathlib.Data.Rat.Floor
import Mathlib.Tactic.FinCases
import Mathlib.Tactic.NormNum
import Mathlib.Algebra.Order.Archimedean.Real.Basic
/-
Properties C28, C29, C30, C37 of the multilinear interpolation, in exact arithmetic over any ordered field
with a floor, for every number of axes.
-/
namespace Sg.Props
open Sg Sg.FindPoint Sg.Spec

section
set_option linter.unusedSectionVars false
variable {K : Type} [Field K] [LinearOrder K] [IsStrictOrderedRing K] [FloorRing K] [FOps K] [FOpsLaws K] {n : Nat}

theorem sideWeight_add (dims : Fin n → Nat) (d : Fin n → K) (i : Fin n) :
    sideWeight dims d i 0 + sideWeight dims d i 1 = 1 := by
  simp [sideWeight]

theorem sideWeight_nonneg (dims : Fin n → Nat) (hd : GoodDims dims) (d : Fin n → K) (h : InGrid dims d) (i : Fin n)
    (b : Nat) : 0 ≤ sideWeight dims d i b := by
  obtain ⟨h0, h1, _⟩ := cellLo_bounds dims hd d h i
  unfold sideWeight
  split <;> linarith

theorem sideWeight_le_one (dims : Fin n → Nat) (hd : GoodDims dims) (d : Fin n → K) (h : InGrid dims d) (i : Fin n)
    (b : Nat) : sideWeight dims d i b ≤ 1 := by
  obtain ⟨h0, h1, _⟩ := cellLo_bounds dims hd d h i
  unfold sideWeight
  split <;> linarith

theorem weights_sum (dims : Fin n → Nat) (d : Fin n → K) :
    ∑ j ∈ Finset.range (2 ^ n), ∏ i, sideWeight dims d i (bit n j i) = 1 := by
  rw [sum_corners n (fun i b => sideWeight dims d i b)]
  exact Finset.prod_eq_one fun i _ => sideWeight_add dims d i

/-- **C28** For every number of axes, grid shape and position in the grid, `getSrcIndicesAndWeights` returns
`2^ndims` weights, each in `[0, 1]`, of sum 1. -/
theorem C28_partition_of_unity (dims : Fin n → Nat) (hd : GoodDims dims) (d : Fin n → K) (h : InGrid dims d) :
    ∃ iw, getSrcIndicesAndWeights dims d = .ok iw ∧ iw.length = 2 ^ n ∧
      (∀ e ∈ iw, 0 ≤ e.2 ∧ e.2 ≤ 1) ∧ (iw.map Prod.snd).sum = 1 := by
  refine ⟨_, getSrc_ok dims hd d h, by simp, ?_, ?_⟩
  · intro e he
    obtain ⟨j, _, rfl⟩ := List.mem_map.1 he
    dsimp only
    exact ⟨Finset.prod_nonneg fun i _ => sideWeight_nonneg dims hd d h i _,
      Finset.prod_le_one (fun i _ => sideWeight_nonneg dims hd d h i _) fun i _ => sideWeight_le_one dims hd d h i _⟩
  · rw [List.map_map]
    exact weights_sum dims d

/-- **C29** The indices returned with the weights are those of existing nodes and pairwise distinct. -/
theorem C29_indices_valid (dims : Fin n → Nat) (hd : GoodDims dims) (d : Fin n → K) (h : InGrid dims d) :
    ∃ iw, getSrcIndicesAndWeights dims d = .ok iw ∧
      (∀ e ∈ iw, 0 ≤ e.1 ∧ e.1 < ((∏ i, dims i : Nat) : Int)) ∧ (iw.map Prod.fst).Nodup := by
  refine ⟨_, getSrc_ok dims hd d h, ?_, ?_⟩
  · intro e he
    obtain ⟨j, _, rfl⟩ := List.mem_map.1 he
    have := rowMajor_lt dims _ (cornerNode_lt dims hd d h j)
    dsimp only
    omega
  · rw [List.map_map]
    refine List.Nodup.map_on ?_ List.nodup_range
    intro j hj k hk e
    simp only [Function.comp, Nat.cast_inj] at e
    have e' := rowMajor_inj dims _ _ (cornerNode_lt dims hd d h j) (cornerNode_lt dims hd d h k) e
    refine corner_inj n j k (List.mem_range.1 hj) (List.mem_range.1 hk) fun i => ?_
    have := congrFun e' i
    unfold cornerNode at this
    omega

/-- **C29** More precisely the nodes are the corners of the cell holding the position, each once, and the
index is its place in a row-major array. -/
theorem C29_indices_are_corners (dims : Fin n → Nat) (hd : GoodDims dims) (d : Fin n → K) (h : InGrid dims d) :
    ∃ iw, getSrcIndicesAndWeights dims d = .ok iw ∧
      ∀ k : Int, k ∈ iw.map Prod.fst ↔ ∃ m, IsCorner dims d m ∧ k = rowMajor dims m := by
  refine ⟨_, getSrc_ok dims hd d h, ?_⟩
  intro k
  rw [List.map_map, List.mem_map]
  constructor
  · rintro ⟨j, _, rfl⟩
    refine ⟨cornerNode dims d j, fun i => ?_, rfl⟩
    have := bit_lt n j i
    unfold cornerNode
    omega
  · rintro ⟨m, hm, rfl⟩
    obtain ⟨j, hj, hb⟩ := exists_corner n (fun i => m i - cellLo dims d i) (fun i => by rcases hm i with h | h <;> omega)
    refine ⟨j, List.mem_range.2 hj, ?_⟩
    have : cornerNode dims d j = m := by
      funext i
      unfold cornerNode
      rw [hb]
      rcases hm i with h | h <;> omega
    simp only [Function.comp, this]

theorem cornerNode_isCorner (dims : Fin n → Nat) (d : Fin n → K) (j : Nat) : IsCorner dims d (cornerNode dims d j) := by
  intro i
  have := bit_lt n j i
  unfold cornerNode
  omega

/-- **C30** (multilinear) If the data are, on the corners of the cell holding the position, the values of a
multilinear function `sum over subsets S of axes of c(S) * product of the indices in S`, then `interp` returns
the value of that function at the position. -/
theorem C30_multilinear_exact (dims : Fin n → Nat) (hd : GoodDims dims) (d : Fin n → K) (h : InGrid dims d)
    (c : Finset (Fin n) → K) (field : List K) (hlen : field.length = ∏ i, dims i)
    (hf : ∀ m, IsCorner dims d m → field[rowMajor dims m]? = some (∑ S, c S * ∏ i ∈ S, (m i : K))) :
    interp dims d field = .ok (∑ S, c S * ∏ i ∈ S, d i) := by
  rw [interp_ok dims hd d h field hlen]
  congr 1
  have h1 : ∀ j, field.getD (rowMajor dims (cornerNode dims d j)) 0 =
      ∑ S, c S * ∏ i ∈ S, (cornerNode dims d j i : K) := by
    intro j
    rw [List.getD_eq_getElem?_getD, hf _ (cornerNode_isCorner dims d j)]; rfl
  simp only [h1, Finset.mul_sum]
  rw [Finset.sum_comm]
  refine Finset.sum_congr rfl fun S _ => ?_
  have h2 : ∀ j, (∏ i, sideWeight dims d i (bit n j i)) * (c S * ∏ i ∈ S, (cornerNode dims d j i : K)) =
      c S * ∏ i, (sideWeight dims d i (bit n j i) * if i ∈ S then ((cellLo dims d i + bit n j i : Nat) : K) else 1) := by
    intro j
    rw [Finset.prod_mul_distrib, Finset.prod_ite_mem, Finset.univ_inter]
    unfold cornerNode
    ring
  simp only [h2]
  rw [← Finset.mul_sum, sum_corners n (fun i b => sideWeight dims d i b *
    if i ∈ S then ((cellLo dims d i + b : Nat) : K) else 1)]
  congr 1
  rw [← Finset.univ_inter S, ← Finset.prod_ite_mem, Finset.univ_inter]
  refine Finset.prod_congr rfl fun i _ => ?_
  by_cases hi : i ∈ S
  · simp only [if_pos hi, sideWeight]
    rw [if_neg one_ne_zero]
    push_cast
    ring
  · simp only [if_neg hi, mul_one]
    exact sideWeight_add dims d i

/-- **C30** (nodes) At a node, also on the upper boundary, `interp` returns the value stored for this node. -/
theorem C30_node_exact (dims : Fin n → Nat) (hd : GoodDims dims) (m : Fin n → Nat) (hm : ∀ i, m i < dims i)
    (field : List K) (hlen : field.length = ∏ i, dims i) :
    ∃ v, field[rowMajor dims m]? = some v ∧ interp dims (fun i => (m i : K)) field = .ok v := by
  have hlt := rowMajor_lt dims m hm
  have h : InGrid dims (fun i => (m i : K)) := by
    intro i
    have h1 : ((m i + 1 : Nat) : K) ≤ (dims i : K) := by exact_mod_cast hm i
    push_cast at h1
    refine ⟨Nat.cast_nonneg _, ?_⟩
    show (m i : K) ≤ _
    linarith
  refine ⟨field[rowMajor dims m]'(by omega), List.getElem?_eq_getElem _, ?_⟩
  rw [interp_ok dims hd _ h field hlen]
  congr 1
  set d : Fin n → K := fun i => (m i : K) with hdd
  have hb : ∀ i, (m i = cellLo dims d i ∨ m i = cellLo dims d i + 1) := by
    intro i
    obtain ⟨h0, h1, _⟩ := cellLo_bounds dims hd d h i
    have hmi : d i = (m i : K) := rfl
    rw [hmi] at h0 h1
    have h0' : cellLo dims d i ≤ m i := by exact_mod_cast h0
    have h1' : m i ≤ cellLo dims d i + 1 := by exact_mod_cast h1
    omega
  obtain ⟨j, hj, hbit⟩ := exists_corner n (fun i => m i - cellLo dims d i) (fun i => by rcases hb i with h | h <;> omega)
  have hnode : cornerNode dims d j = m := by
    funext i
    unfold cornerNode
    rw [hbit]
    rcases hb i with h | h <;> omega
  rw [Finset.sum_eq_single j]
  · have : ∏ i, sideWeight dims d i (bit n j i) = 1 := by
      refine Finset.prod_eq_one fun i _ => ?_
      rw [hbit]
      unfold sideWeight
      rcases hb i with h | h
      · rw [if_pos (by omega), show d i = (m i : K) from rfl, h]; simp
      · rw [if_neg (by omega), show d i = (m i : K) from rfl, h]; push_cast; ring
    rw [this, one_mul, hnode, List.getD_eq_getElem?_getD, List.getElem?_eq_getElem (by omega)]; rfl
  · intro k hk hkj
    have hex : ∃ i, bit n k i ≠ bit n j i := by
      by_contra hc
      push Not at hc
      exact hkj (corner_inj n k j (Finset.mem_range.1 hk) hj hc)
    obtain ⟨i, hi⟩ := hex
    have : sideWeight dims d i (bit n k i) = 0 := by
      have h2 := bit_lt n k i
      rw [hbit] at hi
      unfold sideWeight
      rcases hb i with h | h
      · rw [if_neg (by omega), show d i = (m i : K) from rfl, h]; simp
      · rw [if_pos (by omega), show d i = (m i : K) from rfl, h]; push_cast; ring
    rw [Finset.prod_eq_zero (Finset.mem_univ i) this, zero_mul]
  · intro hc; exact absurd (Finset.mem_range.2 hj) hc

/-- **C37** `interp` returns a value between any two bounds of the values at the corners of the cell holding the
position, in particular between the smallest and the largest of them. -/
theorem C37_range (dims : Fin n → Nat) (hd : GoodDims dims) (d : Fin n → K) (h : InGrid dims d)
    (field : List K) (hlen : field.length = ∏ i, dims i) (lo hi : K)
    (hf : ∀ m v, IsCorner dims d m → field[rowMajor dims m]? = some v → lo ≤ v ∧ v ≤ hi) :
    ∃ v, interp dims d field = .ok v ∧ lo ≤ v ∧ v ≤ hi := by
  refine ⟨_, interp_ok dims hd d h field hlen, ?_⟩
  have h1 : ∀ j, lo ≤ field.getD (rowMajor dims (cornerNode dims d j)) 0 ∧
      field.getD (rowMajor dims (cornerNode dims d j)) 0 ≤ hi := by
    intro j
    have hlt := rowMajor_lt dims _ (cornerNode_lt dims hd d h j)
    refine hf _ _ (cornerNode_isCorner dims d j) ?_
    rw [List.getD_eq_getElem?_getD, List.getElem?_eq_getElem (by omega)]; rfl
  have hw : ∀ j, 0 ≤ ∏ i, sideWeight dims d i (bit n j i) := fun j =>
    Finset.prod_nonneg fun i _ => sideWeight_nonneg dims hd d h i _
  constructor
  · calc lo = ∑ j ∈ Finset.range (2 ^ n), (∏ i, sideWeight dims d i (bit n j i)) * lo := by
          rw [← Finset.sum_mul, weights_sum, one_mul]
      _ ≤ _ := Finset.sum_le_sum fun j _ => mul_le_mul_of_nonneg_left (h1 j).1 (hw j)
  · calc _ ≤ ∑ j ∈ Finset.range (2 ^ n), (∏ i, sideWeight dims d i (bit n j i)) * hi :=
          Finset.sum_le_sum fun j _ => mul_le_mul_of_nonneg_left (h1 j).2 (hw j)
      _ = hi := by rw [← Finset.sum_mul, weights_sum, one_mul]

end

/-! ### The laws can be met -/

/-- Truncated remainder of the C library, in exact arithmetic. -/
def cfmod {K : Type} [Field K] [LinearOrder K] [FloorRing K] (x p : K) : K :=
  if 0 ≤ x / p then x - p * (⌊x / p⌋ : Int) else x + p * (⌊-x / p⌋ : Int)

/-- The real instance. -/
noncomputable instance instFOpsReal : FOps ℝ where
  floorI x := if inI32 ⌊x⌋ then some ⌊x⌋ else none
  sqrt := Real.sqrt
  fmod := cfmod
  big := 2 ^ 1023 * (2 - 2⁻¹ ^ 52)
  eps100 := 100 * 2⁻¹ ^ 52

/-- A computable instance for examples.  The square root is replaced by the identity (only its sign and zeros
matter for the laws). -/
instance instFOpsRat : FOps ℚ where
  floorI x := if inI32 ⌊x⌋ then some ⌊x⌋ else none
  sqrt x := x
  fmod := cfmod
  big := 2 ^ 1024 - 2 ^ 971
  eps100 := 100 / 2 ^ 52

theorem cfmod_laws {K : Type} [Field K] [LinearOrder K] [IsStrictOrderedRing K] [FloorRing K] (x p : K) (hp : 0 < p) :
    (-p < cfmod x p ∧ cfmod x p < p) ∧ (0 ≤ x → 0 ≤ cfmod x p) := by
  unfold cfmod
  split_ifs with h
  · have h1 := Int.floor_le (x / p)
    have h2 := Int.lt_floor_add_one (x / p)
    rw [le_div_iff₀ hp] at h1
    rw [div_lt_iff₀ hp] at h2
    refine ⟨⟨?_, ?_⟩, fun _ => ?_⟩ <;> nlinarith
  · have h1 := Int.floor_le (-x / p)
    have h2 := Int.lt_floor_add_one (-x / p)
    rw [le_div_iff₀ hp] at h1
    rw [div_lt_iff₀ hp] at h2
    refine ⟨⟨?_, ?_⟩, fun hx => absurd (div_nonneg hx hp.le) h⟩ <;> nlinarith

theorem cfmod_small {K : Type} [Field K] [LinearOrder K] [IsStrictOrderedRing K] [FloorRing K] (x p : K) (h0 : 0 ≤ x)
    (hx : x < p) : cfmod x p = x ∧ cfmod (x + p) p = x := by
  have hp : 0 < p := h0.trans_lt hx
  have f0 : ⌊x / p⌋ = 0 := Int.floor_eq_zero_iff.2 ⟨div_nonneg h0 hp.le, (div_lt_one hp).2 hx⟩
  have f1 : ⌊(x + p) / p⌋ = 1 := by rw [add_div, div_self hp.ne', Int.floor_add_one, f0]; rfl
  unfold cfmod
  rw [if_pos (div_nonneg h0 hp.le), if_pos (div_nonneg (by linarith) hp.le), f0, f1]
  constructor <;> simp

theorem cfmod_cong {K : Type} [Field K] [LinearOrder K] [IsStrictOrderedRing K] [FloorRing K] (x p : K) :
    ∃ k : Int, cfmod x p = x - k * p := by
  unfold cfmod
  split_ifs
  · exact ⟨⌊x / p⌋, by ring⟩
  · exact ⟨-⌊-x / p⌋, by push_cast; ring⟩

instance : FOpsLaws ℝ where
  floorI x h := by simp only [FOps.floorI, if_pos h]
  sqrt_zero := Real.sqrt_zero
  sqrt_pos x h := Real.sqrt_pos.2 h
  fmod_bound x p hp := (cfmod_laws x p hp).1
  fmod_nonneg x p hp := (cfmod_laws x p hp).2
  fmod_small x p h0 h := (cfmod_small x p h0 h).1
  fmod_add x p h0 h := (cfmod_small x p h0 h).2
  fmod_cong x p _ := cfmod_cong x p
  eps_pos := by simp only [FOps.eps100]; positivity

instance : FOpsLaws ℚ where
  floorI x h := by simp only [FOps.floorI, if_pos h]
  sqrt_zero := rfl
  sqrt_pos x h := h
  fmod_bound x p hp := (cfmod_laws x p hp).1
  fmod_nonneg x p hp := (cfmod_laws x p hp).2
  fmod_small x p h0 h := (cfmod_small x p h0 h).1
  fmod_add x p h0 h := (cfmod_small x p h0 h).2
  fmod_cong x p _ := cfmod_cong x p
  eps_pos := by simp only [FOps.eps100]; positivity

/-- A position inside a 3 x 4 grid: hypotheses of C28, C29, C37. -/
example : GoodDims ![3, 4] ∧ InGrid ![3, 4] (![3 / 2, 3] : Fin 2 → ℚ) := by
  constructor
  · intro i; fin_cases i <;> simp
  · intro i; fin_cases i <;> norm_num

/-- Interpolation of `10 i + j` at `(3/2, 3)`, on the upper boundary of a 3 x 4 grid. -/
example : interp ![3, 4] (![3 / 2, 3] : Fin 2 → ℚ) [0, 1, 2, 3, 10, 11, 12, 13, 20, 21, 22, 23] = .ok 18 := by
  decide +kernel

end Sg.Props
