import Verif.Proof.FindPointExact
import Verif.Props.FindOverlap
/-
Property C151: interpolation at positions outside of the grid.  `K` is an ordered field with a floor.
-/
namespace Sg.Props
open Sg Sg.FindPoint Sg.Spec

set_option linter.unusedSectionVars false

/-- How far the index `x` is from the range `0 .. m - 1` of an axis of `m` nodes. -/
def outBy {K : Type} [Field K] [LinearOrder K] (m : Nat) (x : K) : K := max 0 (max (-x) (x - ((m : K) - 1)))

section exact
variable {K : Type} [Field K] [LinearOrder K] [IsStrictOrderedRing K] [FloorRing K] [FOps K] [FOpsLaws K] {n : Nat}

theorem axis_total (m : Nat) (hm : 2 ≤ m) (x : K) :
    axisWeight x (loCorner m ⌊x⌋ + ((0 : Nat) : Int)) + axisWeight x (loCorner m ⌊x⌋ + ((1 : Nat) : Int)) = 1 - 2 * outBy m x := by
  have hmK : (2 : K) ≤ (m : K) := by exact_mod_cast hm
  rcases lt_or_ge x 0 with h0 | h0
  · have hf : ⌊x⌋ < 0 := Int.floor_lt.2 (by simpa using h0)
    have hl : loCorner m ⌊x⌋ = 0 := by
      unfold loCorner
      dsimp only
      rw [if_neg (show ¬ ⌊x⌋ ≥ 0 by omega), if_pos (by omega)]
    have ho : outBy m x = -x := by
      unfold outBy
      rw [max_eq_left (show x - ((m : K) - 1) ≤ -x by linarith), max_eq_right (by linarith)]
    rw [hl, ho]
    unfold axisWeight
    dsimp only
    rw [if_neg (by push_cast; linarith), if_neg (by push_cast; linarith)]
    push_cast
    ring
  · rcases le_or_gt x ((m : K) - 1) with h1 | h1
    · have hf : 0 ≤ ⌊x⌋ := Int.floor_nonneg.2 h0
      have ho : outBy m x = 0 := by
        unfold outBy
        rw [max_eq_left (max_le (by linarith) (by linarith))]
      have hlo : ((loCorner m ⌊x⌋ : Int) : K) ≤ x ∧ x ≤ ((loCorner m ⌊x⌋ : Int) : K) + 1 := by
        unfold loCorner
        dsimp only
        rw [if_pos hf]
        split_ifs with h2
        · exact ⟨Int.floor_le x, (Int.lt_floor_add_one x).le⟩
        · have h3 : ((m : Int) - 2 : Int) ≤ ⌊x⌋ := by omega
          have h4 : (((m : Int) - 2 : Int) : K) ≤ x := Int.le_floor.1 h3
          refine ⟨h4, ?_⟩
          push_cast
          linarith
      rw [ho]
      generalize loCorner m ⌊x⌋ = l at hlo ⊢
      unfold axisWeight
      dsimp only
      push_cast
      rw [add_zero, if_pos hlo.1]
      split_ifs with h5
      · linarith [hlo.2]
      · ring
    · have hf : (m : Int) - 1 ≤ ⌊x⌋ := Int.le_floor.2 (by push_cast; linarith)
      have hl : loCorner m ⌊x⌋ = (m : Int) - 2 := by
        unfold loCorner
        dsimp only
        rw [if_pos (show ⌊x⌋ ≥ 0 by omega), if_neg (by omega)]
      have ho : outBy m x = x - ((m : K) - 1) := by
        unfold outBy
        rw [max_eq_right (by linarith : -x ≤ x - ((m : K) - 1)), max_eq_right (by linarith)]
      rw [hl, ho]
      unfold axisWeight
      dsimp only
      rw [if_pos (by push_cast; linarith), if_pos (by push_cast; linarith)]
      push_cast
      ring

/-- **C151** Any number of axes, any shape, any position whose indices can be rounded to an `int`, in the grid or not: `2^ndims` distinct nodes of the grid are
returned, and the weights sum to the product over the axes of one minus twice the distance from the index range.  So a constant field is reproduced where the
position is in the grid, and not next to it. -/
theorem C151_sum (dims : Fin n → Nat) (hd : GoodDims dims) (d : Fin n → K) (h : ∀ i, -2147483648 ≤ ⌊d i⌋ ∧ ⌊d i⌋ ≤ 2147483647) :
    ∃ iw, getSrcIndicesAndWeights dims d = .ok iw ∧ iw.length = 2 ^ n ∧ (∀ e ∈ iw, 0 ≤ e.1 ∧ e.1 < ((∏ i, dims i : Nat) : Int)) ∧
      (iw.map Prod.fst).Nodup ∧ (iw.map Prod.snd).sum = ∏ i, (1 - 2 * outBy (dims i) (d i)) := by
  have hf : ∀ i, FOps.floorI (d i) = some ⌊d i⌋ := fun i => FOpsLaws.floorI _ (h i)
  have hs : ∀ i, (FOps.floorI (d i)).isSome := fun i => by rw [hf i]; rfl
  have hlo : loCorners dims d = .ok fun i => loCorner (dims i) ⌊d i⌋ := by
    unfold loCorners
    rw [dif_pos hs]
    congr 1
    funext i
    rw [show (FOps.floorI (d i)).get (hs i) = ⌊d i⌋ by rw [Option.get_of_eq_some _ (hf i)]]
  have hb : ∀ i, 0 ≤ loCorner (dims i) ⌊d i⌋ ∧ loCorner (dims i) ⌊d i⌋ + 2 ≤ (dims i : Int) := by
    intro i
    have := (hd i).1
    unfold loCorner
    dsimp only
    split_ifs <;> omega
  have hbit : ∀ (j : Nat) (i : Fin n), j / nodeProdDims n i % 2 = bit n j i := by
    intro j i; rw [nodeProdDims_eq n i i.2]; rfl
  have hidx : ∀ j, (cornerIndexWeight dims d (fun i => loCorner (dims i) ⌊d i⌋) j).1 =
      (rowMajor dims (fun i => (loCorner (dims i) ⌊d i⌋).toNat + bit n j i) : Int) := by
    intro j
    unfold cornerIndexWeight rowMajor
    dsimp only
    rw [Nat.cast_sum]
    refine Finset.sum_congr rfl fun i _ => ?_
    rw [hbit, prodDims_eq]
    push_cast
    rw [Int.toNat_of_nonneg (hb i).1]
    ring
  have hnode : ∀ (j : Nat) (i : Fin n), (loCorner (dims i) ⌊d i⌋).toNat + bit n j i < dims i := fun j i => by
    have := hb i; have := bit_lt n j i; omega
  refine ⟨(List.range (2 ^ n)).map (cornerIndexWeight dims d fun i => loCorner (dims i) ⌊d i⌋), ?_, by simp, ?_, ?_, ?_⟩
  · unfold getSrcIndicesAndWeights
    rw [hlo]
    rfl
  · intro e he
    obtain ⟨j, _, rfl⟩ := List.mem_map.1 he
    rw [hidx]
    have := rowMajor_lt dims _ (hnode j)
    omega
  · rw [List.map_map]
    refine List.Nodup.map_on ?_ List.nodup_range
    intro j hj k hk e
    simp only [Function.comp, hidx, Nat.cast_inj] at e
    have e' := rowMajor_inj dims _ _ (hnode j) (hnode k) e
    refine corner_inj n j k (List.mem_range.1 hj) (List.mem_range.1 hk) fun i => ?_
    have := congrFun e' i
    omega
  · rw [List.map_map]
    have : (List.map (Prod.snd ∘ cornerIndexWeight dims d fun i => loCorner (dims i) ⌊d i⌋) (List.range (2 ^ n))) =
        (List.range (2 ^ n)).map fun j => ∏ i, axisWeight (d i) (loCorner (dims i) ⌊d i⌋ + ((bit n j i : Nat) : Int)) := by
      refine List.map_congr_left fun j _ => ?_
      simp only [Function.comp, cornerIndexWeight]
      rw [foldl_mul_prod (fun i => axisWeight (d i) (loCorner (dims i) ⌊d i⌋ + ((j / nodeProdDims n i % 2 : Nat) : Int)))]
      exact Finset.prod_congr rfl fun i _ => by rw [hbit]
    rw [this]
    refine (sum_corners n fun i b => axisWeight (d i) (loCorner (dims i) ⌊d i⌋ + (b : Int))).trans ?_
    exact Finset.prod_congr rfl fun i _ => axis_total (dims i) (hd i).1 (d i)

/-- **C151** In the grid nothing is lost, and with exactly one index out of range, by less than one, the sum is smaller than one in size. -/
theorem C151_one_iff (dims : Fin n → Nat) (d : Fin n → K) :
    (InGrid dims d → ∏ i, (1 - 2 * outBy (dims i) (d i)) = 1) ∧
      ∀ k : Fin n, (∀ i, i ≠ k → 0 ≤ d i ∧ d i ≤ (dims i : K) - 1) → 0 < outBy (dims k) (d k) → outBy (dims k) (d k) < 1 →
        |∏ i, (1 - 2 * outBy (dims i) (d i))| < 1 := by
  have hz : ∀ i, 0 ≤ d i ∧ d i ≤ (dims i : K) - 1 → 1 - 2 * outBy (dims i) (d i) = 1 := fun i hi => by
    unfold outBy
    rw [max_eq_left (max_le (by linarith [hi.1]) (by linarith [hi.2]))]
    ring
  refine ⟨fun h => Finset.prod_eq_one fun i _ => hz i (h i), fun k hk h0 h1 => ?_⟩
  rw [Finset.prod_eq_single k (fun i _ hi => hz i (hk i hi)) fun h => absurd (Finset.mem_univ _) h, abs_lt]
  constructor <;> linarith

end exact

/-- The start of the search of a vertex on an axis of two nodes is outside: the weights sum to about 0.964. -/
example : (do
    let iw ← getSrcIndicesAndWeights ![5, 2] (FindOverlap.startIndices ![5, 2] : Fin 2 → ℚ)
    return (decide ((iw.map Prod.snd).sum < 965 / 1000), iw.map Prod.fst)) = .ok (true, [4, 5, 6, 7]) := by decide +kernel

/-- A position half an index above the last node: the weights cancel. -/
example : (do
    let iw ← getSrcIndicesAndWeights ![3] (![5 / 2] : Fin 1 → ℚ)
    return iw) = .ok [(1, -1 / 2), (2, 1 / 2)] := by decide +kernel

example : outBy 3 (5 / 2 : ℚ) = 1 / 2 ∧ outBy 3 (-1 : ℚ) = 1 ∧ outBy 3 (2 : ℚ) = 0 := by decide +kernel

end Sg.Props
