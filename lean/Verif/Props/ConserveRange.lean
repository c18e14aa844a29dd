import Verif.Props.ConserveTotals
import Verif.Props.ConserveExamples
/-
Property C83: the values conservative interpolation can produce.
-/
namespace Sg.Props
open Sg.LinearSolve Sg.Triangulate Sg.QuadIntersect Sg.Conserve Sg.Spec Sg.Plane MeasureTheory

theorem fraction_nonneg (d s : Quad ℝ) : 0 ≤ overlapFraction d s :=
  div_nonneg ENNReal.toReal_nonneg ENNReal.toReal_nonneg

theorem area_mono {A B : Set P2} (h : A ⊆ B) (hB : IsCompact B) : area A ≤ area B :=
  ENNReal.toReal_mono hB.measure_lt_top.ne (measure_mono h)

theorem fraction_le_one (d s : Quad ℝ) : overlapFraction d s ≤ 1 :=
  div_le_one_of_le₀ (area_mono Set.inter_subset_left (isCompact_region d)) ENNReal.toReal_nonneg

section exact
variable (g : Gels ℝ) (hg : GelsContract g) (sort : List P2 → List P2) (hsort : ∀ l, IsStdSort l (sort l)) (mode : Mode)
  (ddims sdims per : Nat × Nat) (dx dy sx sy : List ℝ)
  (hd : 1 ≤ ddims.1 ∧ 1 ≤ ddims.2) (hs : 1 ≤ sdims.1 ∧ 1 ≤ sdims.2)
  (hdx : ddims.1 * ddims.2 ≤ dx.length) (hdy : ddims.1 * ddims.2 ≤ dy.length)
  (hsx : sdims.1 * sdims.2 ≤ sx.length) (hsy : sdims.1 * sdims.2 ≤ sy.length)
  (hc : ∀ i < cellCount ddims, ∀ j < cellCount sdims, CleanCells (gridCell ddims dx dy i) (gridCell sdims sx sy j))
include hg hsort hd hs hdx hdy hsx hsy hc

/-- **C83** Every weight in the table lies between 0 and 1. -/
theorem C83_weight_range (hn : 0 < cellCount sdims) (o o' : Interp ℝ) (h0 : o.weights = [])
    (h : setAndCompute g sort mode o ddims dx dy sdims per sx sy = .ok o') :
    ∀ i j w, (i, j, w) ∈ triples o'.weights → 0 ≤ w ∧ w ≤ 1 := by
  intro i j w hm
  obtain ⟨_, _, rfl⟩ := (C56_listed g hg sort hsort mode ddims sdims per dx dy sx sy hd hs hdx hdy hsx hsy hc hn o o' h0 h).2 i j w hm
  exact ⟨fraction_nonneg _ _, fraction_le_one _ _⟩

omit hg hsort hd hs hdx hdy hsx hsy hc in
theorem fractions_part (i : Nat) (hno : NoOverlap sdims sx sy) :
    ∑ j ∈ Finset.range (cellCount sdims), overlapFraction (gridCell ddims dx dy i) (gridCell sdims sx sy j) =
      area (quadRegion (gridCell ddims dx dy i) ∩ gridRegion sdims sx sy) / area (quadRegion (gridCell ddims dx dy i)) := by
  unfold overlapFraction
  rw [← Finset.sum_div, ← area_parts (isCompact_region _) (fun j => quadRegion (gridCell sdims sx sy j))
    (fun j => isCompact_region _) _ hno]
  rfl

/-- **C83** The weights of a destination cell sum to the part of it that the source grid covers, hence to at most 1
(source cells not overlapping each other). -/
theorem C83_partial_cover (o o' : Interp ℝ) (h0 : o.weights = [])
    (h : setAndCompute g sort mode o ddims dx dy sdims per sx sy = .ok o') (i : Nat) (hi : i < cellCount ddims)
    (hno : NoOverlap sdims sx sy) :
    ∑ j ∈ Finset.range (cellCount sdims), weightOf o'.weights i j =
      area (quadRegion (gridCell ddims dx dy i) ∩ gridRegion sdims sx sy) / area (quadRegion (gridCell ddims dx dy i)) ∧
    ∑ j ∈ Finset.range (cellCount sdims), weightOf o'.weights i j ≤ 1 := by
  have e : ∑ j ∈ Finset.range (cellCount sdims), weightOf o'.weights i j =
      area (quadRegion (gridCell ddims dx dy i) ∩ gridRegion sdims sx sy) / area (quadRegion (gridCell ddims dx dy i)) := by
    rw [← fractions_part ddims sdims dx dy sx sy i hno]
    refine Finset.sum_congr rfl fun j hj => ?_
    exact C56_weight g hg sort hsort mode ddims sdims per dx dy sx sy hd hs hdx hdy hsx hsy hc o o' h0 h i hi j
      (Finset.mem_range.mp hj)
  refine ⟨e, ?_⟩
  rw [e]
  exact div_le_one_of_le₀ (area_mono Set.inter_subset_left (isCompact_region _)) ENNReal.toReal_nonneg

/-- **C83** The value of a destination cell that is covered lies between bounds on the values of the source cells that
have area in common with it. -/
theorem C83_range (o o' : Interp ℝ) (h0 : o.weights = [])
    (h : setAndCompute g sort mode o ddims dx dy sdims per sx sy = .ok o')
    (srcData dstData : List ℝ) (hlen : cellCount sdims ≤ srcData.length) (hlen' : cellCount ddims ≤ dstData.length)
    (hno : NoOverlap sdims sx sy) (hn : 0 < cellCount sdims) :
    ∃ d', o'.apply srcData dstData = .ok d' ∧ d'.length = dstData.length ∧
      ∀ i < cellCount ddims, quadRegion (gridCell ddims dx dy i) ⊆ gridRegion sdims sx sy → ∀ lo hi : ℝ,
        (∀ j < cellCount sdims, area (quadRegion (gridCell ddims dx dy i) ∩ quadRegion (gridCell sdims sx sy j)) ≠ 0 →
          lo ≤ srcData.getD j 0 ∧ srcData.getD j 0 ≤ hi) → lo ≤ d'.getD i 0 ∧ d'.getD i 0 ≤ hi := by
  have hT := setAndCompute_spec g hg sort hsort mode ddims sdims per dx dy sx sy hd hs hdx hdy hsx hsy hc hn o o' h0 h
  obtain ⟨d', e, hl, hv⟩ := apply_value hT hn (fun i hi => (hc i hi 0 hn).dst) srcData dstData hlen hlen'
  refine ⟨d', e, hl, ?_⟩
  intro i hi hcov lo hi' hb
  have hsum := fractions_sum ddims sdims dx dy sx sy hc i hi hn hcov hno
  have hterm : ∀ j ∈ Finset.range (cellCount sdims),
      overlapFraction (gridCell ddims dx dy i) (gridCell sdims sx sy j) * lo ≤
        overlapFraction (gridCell ddims dx dy i) (gridCell sdims sx sy j) * srcData.getD j 0 ∧
      overlapFraction (gridCell ddims dx dy i) (gridCell sdims sx sy j) * srcData.getD j 0 ≤
        overlapFraction (gridCell ddims dx dy i) (gridCell sdims sx sy j) * hi' := by
    intro j hj
    by_cases hz : area (quadRegion (gridCell ddims dx dy i) ∩ quadRegion (gridCell sdims sx sy j)) = 0
    · rw [overlapFraction, hz]; simp
    · obtain ⟨h1, h2⟩ := hb j (Finset.mem_range.mp hj) hz
      exact ⟨mul_le_mul_of_nonneg_left h1 (fraction_nonneg _ _), mul_le_mul_of_nonneg_left h2 (fraction_nonneg _ _)⟩
  rw [hv i hi]
  · constructor
    · rw [← one_mul lo, ← hsum, Finset.sum_mul]; exact Finset.sum_le_sum fun j hj => (hterm j hj).1
    · rw [← one_mul hi', ← hsum, Finset.sum_mul]; exact Finset.sum_le_sum fun j hj => (hterm j hj).2
  · intro hz
    exfalso
    have : ∑ j ∈ Finset.range (cellCount sdims), overlapFraction (gridCell ddims dx dy i) (gridCell sdims sx sy j) = 0 :=
      Finset.sum_eq_zero fun j hj => by rw [overlapFraction, hz j (Finset.mem_range.mp hj), zero_div]
    rw [hsum] at this
    exact one_ne_zero this

/-- **C83** Interpolation is monotone: a source field that is nowhere larger gives a result that is nowhere larger,
covered or not.  In particular a field without negative values gives one without (arrays that held 0 before). -/
theorem C83_monotone (o o' : Interp ℝ) (h0 : o.weights = [])
    (h : setAndCompute g sort mode o ddims dx dy sdims per sx sy = .ok o')
    (s1 s2 dstData : List ℝ) (hlen1 : cellCount sdims ≤ s1.length) (hlen2 : cellCount sdims ≤ s2.length)
    (hlen' : cellCount ddims ≤ dstData.length) (hn : 0 < cellCount sdims)
    (hzero : ∀ i < cellCount ddims, dstData.getD i 0 = 0) (hle : ∀ j < cellCount sdims, s1.getD j 0 ≤ s2.getD j 0) :
    ∃ d1 d2, o'.apply s1 dstData = .ok d1 ∧ o'.apply s2 dstData = .ok d2 ∧
      ∀ i < cellCount ddims, d1.getD i 0 ≤ d2.getD i 0 := by
  have hT := setAndCompute_spec g hg sort hsort mode ddims sdims per dx dy sx sy hd hs hdx hdy hsx hsy hc hn o o' h0 h
  obtain ⟨d1, e1, _, hv1⟩ := apply_value hT hn (fun i hi => (hc i hi 0 hn).dst) s1 dstData hlen1 hlen'
  obtain ⟨d2, e2, _, hv2⟩ := apply_value hT hn (fun i hi => (hc i hi 0 hn).dst) s2 dstData hlen2 hlen'
  refine ⟨d1, d2, e1, e2, fun i hi => ?_⟩
  rw [hv1 i hi fun _ => hzero i hi, hv2 i hi fun _ => hzero i hi]
  exact Finset.sum_le_sum fun j hj => mul_le_mul_of_nonneg_left (hle j (Finset.mem_range.mp hj)) (fraction_nonneg _ _)

end exact

/-- The hypotheses of the C83 theorems hold of the example grids: with source values 5 and 7 the destination values lie in
[5, 7], and raising the values raises the result. -/
example : ∃ o' : Interp ℝ, ∃ d', o'.apply [5, 7] [0, 0] = .ok d' ∧ (∀ i < 2, 5 ≤ d'.getD i 0 ∧ d'.getD i 0 ≤ 7) ∧
    ∃ d1 d2, o'.apply [5, 7] [0, 0] = .ok d1 ∧ o'.apply [6, 7] [0, 0] = .ok d2 ∧ ∀ i < 2, d1.getD i 0 ≤ d2.getD i 0 := by
  obtain ⟨o, o', -, h0, h⟩ := ex_run
  obtain ⟨d', e, -, hr⟩ := C83_range refGels refGels_contract Witness.stdSort Witness.stdSort_ok .keptBuffer
    (3, 2) (2, 3) (0, 0) exDx exDy exSx exSy (by decide) (by decide) (by decide) (by decide) (by decide) (by decide) ex_clean
    o o' h0 h [5, 7] [0, 0] (by decide) (by decide) exS_noOverlap (by decide)
  refine ⟨o', d', e, ?_, ?_⟩
  · intro i hi
    refine hr i hi ?_ 5 7 ?_
    · rw [exS_region, ← exD_region]
      exact Set.subset_iUnion₂_of_subset i (Finset.mem_range.mpr hi) (fun _ h => h)
    · intro j hj _
      rcases (show j = 0 ∨ j = 1 by simp [cellCount] at hj; omega) with rfl | rfl <;> norm_num
  · refine C83_monotone refGels refGels_contract Witness.stdSort Witness.stdSort_ok .keptBuffer
      (3, 2) (2, 3) (0, 0) exDx exDy exSx exSy (by decide) (by decide) (by decide) (by decide) (by decide) (by decide) ex_clean
      o o' h0 h [5, 7] [6, 7] [0, 0] (by decide) (by decide) (by decide) (by decide) ?_ ?_
    · intro i hi
      rcases (show i = 0 ∨ i = 1 by simp [cellCount] at hi; omega) with rfl | rfl <;> rfl
    · intro j hj
      rcases (show j = 0 ∨ j = 1 by simp [cellCount] at hj; omega) with rfl | rfl <;> norm_num

end Sg.Props
