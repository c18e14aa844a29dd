import Verif.Props.ConserveRange
import Mathlib.MeasureTheory.Integral.Bochner.Set
import Mathlib.MeasureTheory.Integral.Prod
import Mathlib.Analysis.SpecialFunctions.Integrals.Basic
/-
Property C102: accuracy of conservative interpolation.
-/
namespace Sg.Props
open Sg.LinearSolve Sg.Triangulate Sg.QuadIntersect Sg.Conserve Sg.Spec Sg.Plane MeasureTheory

/-- The data are the mean values over the cells of the grid of a density `f`. -/
def MeanValues (dims : Nat × Nat) (x y : List ℝ) (f : ℝ × ℝ → ℝ) (data : List ℝ) : Prop :=
  ∀ j < cellCount dims, data.getD j 0 * area (quadRegion (gridCell dims x y j)) = ∫ p in quadRegion (gridCell dims x y j), f p

/-- The density varies by `δ` at most over each cell of the grid. -/
def VariesBy (dims : Nat × Nat) (x y : List ℝ) (f : ℝ × ℝ → ℝ) (δ : ℝ) : Prop :=
  ∀ j < cellCount dims, ∀ p ∈ quadRegion (gridCell dims x y j), ∀ q ∈ quadRegion (gridCell dims x y j), |f p - f q| ≤ δ

theorem integral_parts {f : P2 → ℝ} {A : Set P2} (hA : IsCompact A) (R : Nat → Set P2) (hR : ∀ j, IsCompact (R j)) (n : Nat)
    (hdis : ∀ j < n, ∀ k < n, j ≠ k → area (R j ∩ R k) = 0) (hf : IntegrableOn f (⋃ j ∈ Finset.range n, R j)) :
    ∫ p in A ∩ ⋃ j ∈ Finset.range n, R j, f p = ∑ j ∈ Finset.range n, ∫ p in A ∩ R j, f p := by
  have e : A ∩ (⋃ j ∈ Finset.range n, R j) = ⋃ j : Fin n, A ∩ R j := by
    ext p
    simp only [Set.mem_inter_iff, Set.mem_iUnion, Finset.mem_range]
    constructor
    · rintro ⟨h1, j, hj, h2⟩; exact ⟨⟨j, hj⟩, h1, h2⟩
    · rintro ⟨j, h1, h2⟩; exact ⟨h1, j, j.2, h2⟩
  rw [e, integral_iUnion_ae, tsum_fintype, Finset.sum_range]
  · exact fun j => ((hA.inter (hR j)).isClosed.measurableSet).nullMeasurableSet
  · intro j k hjk
    have h0 : volume (R j ∩ R k) = 0 := by
      rcases (ENNReal.toReal_eq_zero_iff _).mp (hdis j j.2 k k.2 fun h => hjk (Fin.ext h)) with h | h
      · exact h
      · exact absurd h ((hR j).inter (hR k)).measure_lt_top.ne
    exact measure_mono_null (show (A ∩ R j) ∩ (A ∩ R k) ⊆ R j ∩ R k from fun x hx => ⟨hx.1.2, hx.2.2⟩) h0
  · rw [← e]
    exact hf.mono_set Set.inter_subset_right

/-- The integral of a function close to a constant. -/
theorem integral_near {f : P2 → ℝ} {S : Set P2} (hS : IsCompact S) (hf : IntegrableOn f S) (c δ : ℝ) (h : ∀ p ∈ S, |c - f p| ≤ δ) :
    |c * area S - ∫ p in S, f p| ≤ δ * area S := by
  have hfin : volume S < ⊤ := hS.measure_lt_top
  have e : c * area S - ∫ p in S, f p = ∫ p in S, (c - f p) := by
    have h1 : Integrable (fun _ : P2 => c) (volume.restrict S) := integrableOn_const (C := c) hfin.ne (by simp)
    rw [integral_sub h1 hf, setIntegral_const, smul_eq_mul, mul_comm]
    rfl
  rw [e]
  exact norm_setIntegral_le_of_norm_le_const (f := fun p => c - f p) hfin (fun p hp => h p hp)

theorem mean_near_of_varies {f : P2 → ℝ} {S : Set P2} (hS : IsCompact S) (ha : area S ≠ 0) (hf : IntegrableOn f S) (c δ : ℝ)
    (hc : c * area S = ∫ p in S, f p) (h : ∀ p ∈ S, ∀ q ∈ S, |f p - f q| ≤ δ) : ∀ p ∈ S, |c - f p| ≤ δ := by
  intro p hp
  have := integral_near hS hf (f p) δ (h p hp)
  rw [← hc, ← sub_mul, abs_mul, abs_of_nonneg (show 0 ≤ area S from ENNReal.toReal_nonneg)] at this
  rw [abs_sub_comm]
  exact le_of_mul_le_mul_right this (lt_of_le_of_ne ENNReal.toReal_nonneg (Ne.symm ha))

section exact
variable (g : Gels ℝ) (hg : GelsContract g) (sort : List P2 → List P2) (hsort : ∀ l, IsStdSort l (sort l)) (mode : Mode)
  (ddims sdims per : Nat × Nat) (dx dy sx sy : List ℝ)
  (hd : 1 ≤ ddims.1 ∧ 1 ≤ ddims.2) (hs : 1 ≤ sdims.1 ∧ 1 ≤ sdims.2)
  (hdx : ddims.1 * ddims.2 ≤ dx.length) (hdy : ddims.1 * ddims.2 ≤ dy.length)
  (hsx : sdims.1 * sdims.2 ≤ sx.length) (hsy : sdims.1 * sdims.2 ≤ sy.length)
  (hc : ∀ i < cellCount ddims, ∀ j < cellCount sdims, CleanCells (gridCell ddims dx dy i) (gridCell sdims sx sy j))
include hg hsort hd hs hdx hdy hsx hsy hc

/-- **C102, amounts.**  If the source data are the mean values of a density over the source cells, and this density varies by at most `δ` over each
source cell, then the amount in a destination cell (value times area, into an array that held 0) differs from the integral of the
density over the part of the destination cell that the source grid covers by at most `δ` times the area of this part. -/
theorem C102_amount (o o' : Interp ℝ) (h0 : o.weights = [])
    (h : setAndCompute g sort mode o ddims dx dy sdims per sx sy = .ok o')
    (srcData dstData : List ℝ) (hlen : cellCount sdims ≤ srcData.length) (hlen' : cellCount ddims ≤ dstData.length)
    (hno : NoOverlap sdims sx sy) (hn : 0 < cellCount sdims) (hzero : ∀ i < cellCount ddims, dstData.getD i 0 = 0)
    (f : ℝ × ℝ → ℝ) (hf : IntegrableOn f (gridRegion sdims sx sy)) (hm : MeanValues sdims sx sy f srcData) (δ : ℝ)
    (hv : VariesBy sdims sx sy f δ) :
    ∃ d', o'.apply srcData dstData = .ok d' ∧ d'.length = dstData.length ∧ ∀ i < cellCount ddims,
      |d'.getD i 0 * area (quadRegion (gridCell ddims dx dy i)) - ∫ p in quadRegion (gridCell ddims dx dy i) ∩ gridRegion sdims sx sy, f p| ≤
        δ * area (quadRegion (gridCell ddims dx dy i) ∩ gridRegion sdims sx sy) := by
  have hT := setAndCompute_spec g hg sort hsort mode ddims sdims per dx dy sx sy hd hs hdx hdy hsx hsy hc hn o o' h0 h
  obtain ⟨d', e, hl, hval⟩ := apply_value hT hn (fun i hi => (hc i hi 0 hn).dst) srcData dstData hlen hlen'
  refine ⟨d', e, hl, fun i hi => ?_⟩
  set D := quadRegion (gridCell ddims dx dy i) with hD
  have hDc : IsCompact D := isCompact_region _
  have hpos : 0 < area D := area_pos (hc i hi 0 hn).dst
  have hint : ∫ p in D ∩ gridRegion sdims sx sy, f p = ∑ j ∈ Finset.range (cellCount sdims), ∫ p in D ∩ quadRegion (gridCell sdims sx sy j), f p :=
    integral_parts hDc (fun j => quadRegion (gridCell sdims sx sy j)) (fun j => isCompact_region _) _ hno hf
  have harea : area (D ∩ gridRegion sdims sx sy) = ∑ j ∈ Finset.range (cellCount sdims), area (D ∩ quadRegion (gridCell sdims sx sy j)) :=
    area_parts hDc (fun j => quadRegion (gridCell sdims sx sy j)) (fun j => isCompact_region _) _ hno
  rw [hval i hi (fun _ => hzero i hi), hint, harea, Finset.sum_mul, ← Finset.sum_sub_distrib, Finset.mul_sum]
  refine (Finset.abs_sum_le_sum_abs _ _).trans (Finset.sum_le_sum fun j hj => ?_)
  have hj' := Finset.mem_range.1 hj
  set S := quadRegion (gridCell sdims sx sy j) with hS
  have hSc : IsCompact S := isCompact_region _
  have hfS : IntegrableOn f S := hf.mono_set (Set.subset_biUnion_of_mem (u := fun j => quadRegion (gridCell sdims sx sy j)) hj)
  have hSpos : 0 < area S := area_pos (hc i hi j hj').src
  have hnear := mean_near_of_varies hSc hSpos.ne' hfS (srcData.getD j 0) δ (hm j hj') (hv j hj')
  have e1 : overlapFraction (gridCell ddims dx dy i) (gridCell sdims sx sy j) * srcData.getD j 0 * area D = srcData.getD j 0 * area (D ∩ S) := by
    unfold overlapFraction
    rw [← hD, ← hS]
    field_simp
  rw [e1]
  exact integral_near (hDc.inter hSc) (hfS.mono_set Set.inter_subset_right) _ δ fun p hp => hnear p hp.2

/-- **C102, densities that are constant on each source cell** are regridded exactly. -/
theorem C102_exact (o o' : Interp ℝ) (h0 : o.weights = [])
    (h : setAndCompute g sort mode o ddims dx dy sdims per sx sy = .ok o')
    (srcData dstData : List ℝ) (hlen : cellCount sdims ≤ srcData.length) (hlen' : cellCount ddims ≤ dstData.length)
    (hno : NoOverlap sdims sx sy) (hn : 0 < cellCount sdims) (hzero : ∀ i < cellCount ddims, dstData.getD i 0 = 0)
    (f : ℝ × ℝ → ℝ) (hf : IntegrableOn f (gridRegion sdims sx sy)) (hm : MeanValues sdims sx sy f srcData) (hv : VariesBy sdims sx sy f 0) :
    ∃ d', o'.apply srcData dstData = .ok d' ∧ ∀ i < cellCount ddims,
      d'.getD i 0 * area (quadRegion (gridCell ddims dx dy i)) = ∫ p in quadRegion (gridCell ddims dx dy i) ∩ gridRegion sdims sx sy, f p := by
  obtain ⟨d', e, _, hall⟩ := C102_amount g hg sort hsort mode ddims sdims per dx dy sx sy hd hs hdx hdy hsx hsy hc o o' h0 h srcData dstData hlen
    hlen' hno hn hzero f hf hm 0 hv
  refine ⟨d', e, fun i hi => ?_⟩
  have := hall i hi
  rw [zero_mul] at this
  exact sub_eq_zero.1 (abs_eq_zero.1 (le_antisymm this (abs_nonneg _)))

/-- **C102, values.**  In a destination cell that is covered, the value differs from the density at any point of the cell by at most the variation `δ` of the density over
a source cell plus its variation `ε` over the destination cell. -/
theorem C102_value (o o' : Interp ℝ) (h0 : o.weights = [])
    (h : setAndCompute g sort mode o ddims dx dy sdims per sx sy = .ok o')
    (srcData dstData : List ℝ) (hlen : cellCount sdims ≤ srcData.length) (hlen' : cellCount ddims ≤ dstData.length)
    (hno : NoOverlap sdims sx sy) (hn : 0 < cellCount sdims) (hzero : ∀ i < cellCount ddims, dstData.getD i 0 = 0)
    (f : ℝ × ℝ → ℝ) (hf : IntegrableOn f (gridRegion sdims sx sy)) (hm : MeanValues sdims sx sy f srcData) (δ ε : ℝ)
    (hv : VariesBy sdims sx sy f δ) (hv' : VariesBy ddims dx dy f ε) :
    ∃ d', o'.apply srcData dstData = .ok d' ∧ ∀ i < cellCount ddims, quadRegion (gridCell ddims dx dy i) ⊆ gridRegion sdims sx sy →
      ∀ p ∈ quadRegion (gridCell ddims dx dy i), |d'.getD i 0 - f p| ≤ δ + ε := by
  obtain ⟨d', e, _, hall⟩ := C102_amount g hg sort hsort mode ddims sdims per dx dy sx sy hd hs hdx hdy hsx hsy hc o o' h0 h srcData dstData hlen
    hlen' hno hn hzero f hf hm δ hv
  refine ⟨d', e, fun i hi hcov p hp => ?_⟩
  have h1 := hall i hi
  rw [Set.inter_eq_left.2 hcov] at h1
  set D := quadRegion (gridCell ddims dx dy i) with hD
  have hpos : 0 < area D := area_pos (hc i hi 0 hn).dst
  have h2 := integral_near (isCompact_region _) (hf.mono_set hcov) (f p) ε (fun q hq => hv' i hi p hp q hq)
  have h3 : |(d'.getD i 0 - f p) * area D| ≤ (δ + ε) * area D := by
    have e : (d'.getD i 0 - f p) * area D = (d'.getD i 0 * area D - ∫ q in D, f q) - (f p * area D - ∫ q in D, f q) := by ring
    rw [e]
    exact (abs_sub _ _).trans (by rw [add_mul]; exact add_le_add h1 h2)
  rw [abs_mul, abs_of_pos hpos] at h3
  exact le_of_mul_le_mul_right h3 hpos

/-- **C102, the total**: over grids that cover the same region the amounts in the destination cells add up to the integral of the density. -/
theorem C102_total (o o' : Interp ℝ) (h0 : o.weights = [])
    (h : setAndCompute g sort mode o ddims dx dy sdims per sx sy = .ok o')
    (srcData dstData : List ℝ) (hlen : cellCount sdims ≤ srcData.length) (hlen' : cellCount ddims ≤ dstData.length)
    (hno : NoOverlap ddims dx dy) (hno' : NoOverlap sdims sx sy) (hn : 0 < cellCount sdims)
    (hsame : gridRegion ddims dx dy = gridRegion sdims sx sy)
    (f : ℝ × ℝ → ℝ) (hf : IntegrableOn f (gridRegion sdims sx sy)) (hm : MeanValues sdims sx sy f srcData) :
    ∃ d', o'.apply srcData dstData = .ok d' ∧
      ∑ i ∈ Finset.range (cellCount ddims), area (quadRegion (gridCell ddims dx dy i)) * d'.getD i 0 = ∫ p in gridRegion sdims sx sy, f p := by
  obtain ⟨d', e, _, ht⟩ := C58_conserved g hg sort hsort mode ddims sdims per dx dy sx sy hd hs hdx hdy hsx hsy hc o o' h0 h srcData dstData hlen
    hlen' hno hno' hn hsame
  refine ⟨d', e, ?_⟩
  rw [ht]
  have hcomp : IsCompact (gridRegion sdims sx sy) := (Finset.range (cellCount sdims)).isCompact_biUnion fun j _ => isCompact_region _
  have hint := integral_parts hcomp (fun j => quadRegion (gridCell sdims sx sy j)) (fun j => isCompact_region _) _ hno' hf
  have e1 : gridRegion sdims sx sy ∩ (⋃ j ∈ Finset.range (cellCount sdims), quadRegion (gridCell sdims sx sy j)) = gridRegion sdims sx sy := Set.inter_self _
  rw [e1] at hint
  rw [hint]
  refine Finset.sum_congr rfl fun j hj => ?_
  have hsub : quadRegion (gridCell sdims sx sy j) ⊆ gridRegion sdims sx sy :=
    Set.subset_biUnion_of_mem (u := fun j => quadRegion (gridCell sdims sx sy j)) hj
  rw [Set.inter_eq_right.2 hsub, mul_comm]
  exact hm j (Finset.mem_range.1 hj)

end exact

theorem ex_int_box (a b c d : ℝ) (hab : a ≤ b) (hcd : c ≤ d) :
    ∫ p in Set.Icc a b ×ˢ Set.Icc c d, p.1 = (b ^ 2 - a ^ 2) / 2 * (d - c) ∧
    area (Set.Icc a b ×ˢ Set.Icc c d) = (b - a) * (d - c) := by
  constructor
  · have h := setIntegral_prod_mul (μ := (volume : Measure ℝ)) (ν := (volume : Measure ℝ)) (fun x : ℝ => x) (fun _ : ℝ => (1 : ℝ))
      (Set.Icc a b) (Set.Icc c d)
    simp only [mul_one] at h
    rw [← Measure.volume_eq_prod] at h
    rw [h, integral_Icc_eq_integral_Ioc, ← intervalIntegral.integral_of_le hab, integral_id, setIntegral_const, smul_eq_mul, mul_one]
    simp [Measure.real, hcd]
  · unfold area
    rw [Measure.volume_eq_prod, Measure.prod_prod, ENNReal.toReal_mul, Real.volume_Icc, Real.volume_Icc,
      ENNReal.toReal_ofReal (by linarith), ENNReal.toReal_ofReal (by linarith)]

/-- The density `x` on the example grids: its mean over each of the two rows of width 4 is 2, and it varies by 4 over them and by 3 at most over the two columns. -/
theorem ex_density : MeanValues (2, 3) exSx exSy (fun p => p.1) [2, 2] ∧ VariesBy (2, 3) exSx exSy (fun p => p.1) 4 ∧
    VariesBy (3, 2) exDx exDy (fun p => p.1) 3 := by
  refine ⟨fun j hj => ?_, fun j hj p hp q hq => ?_, fun j hj p hp q hq => ?_⟩
  · rw [exS_cell j hj]
    rcases (show j = 0 ∨ j = 1 by simp [cellCount] at hj; omega) with rfl | rfl
    · rw [if_pos rfl, ex_box (by decide) (by decide), (ex_int_box _ _ _ _ (by norm_num) (by norm_num)).1,
        (ex_int_box _ _ _ _ (by norm_num) (by norm_num)).2]
      norm_num
    · rw [if_neg (by decide), ex_box (by decide) (by decide), (ex_int_box _ _ _ _ (by norm_num) (by norm_num)).1,
        (ex_int_box _ _ _ _ (by norm_num) (by norm_num)).2]
      norm_num
  · rw [exS_cell j hj] at hp hq
    split at hp <;> rename_i h <;> simp only [h, if_true, if_false] at hq <;> rw [ex_box (by decide) (by decide)] at hp hq <;>
    · have h1 := hp.1; have h2 := hq.1
      simp only [Set.mem_Icc] at h1 h2
      push_cast at h1 h2
      rw [abs_le]; constructor <;> linarith [h1.1, h1.2, h2.1, h2.2]
  · rw [exD_cell j hj] at hp hq
    split at hp <;> rename_i h <;> simp only [h, if_true, if_false] at hq <;> rw [ex_box (by decide) (by decide)] at hp hq <;>
    · have h1 := hp.1; have h2 := hq.1
      simp only [Set.mem_Icc] at h1 h2
      push_cast at h1 h2
      rw [abs_le]; constructor <;> linarith [h1.1, h1.2, h2.1, h2.2]

/-- The hypotheses of the C102 theorems hold of the example grids and the density `x`. -/
example : ∃ o' : Interp ℝ, (∃ d', o'.apply [2, 2] [0, 0] = .ok d' ∧ ∀ i < 2, ∀ p ∈ quadRegion (gridCell (3, 2) exDx exDy i), |d'.getD i 0 - p.1| ≤ 4 + 3) ∧
    ∃ d', o'.apply [2, 2] [0, 0] = .ok d' ∧ ∑ i ∈ Finset.range 2, area (quadRegion (gridCell (3, 2) exDx exDy i)) * d'.getD i 0 = 32 := by
  obtain ⟨o, o', -, h0, h⟩ := ex_run
  have hint : IntegrableOn (fun p : ℝ × ℝ => p.1) (gridRegion (2, 3) exSx exSy) := by
    rw [exS_region]
    exact continuous_fst.continuousOn.integrableOn_compact (isCompact_Icc.prod isCompact_Icc)
  refine ⟨o', ?_, ?_⟩
  · obtain ⟨d', e, hv⟩ := C102_value refGels refGels_contract Witness.stdSort Witness.stdSort_ok .keptBuffer
      (3, 2) (2, 3) (0, 0) exDx exDy exSx exSy (by decide) (by decide) (by decide) (by decide) (by decide) (by decide) ex_clean
      o o' h0 h [2, 2] [0, 0] (by decide) (by decide) exS_noOverlap (by decide)
      (by intro i hi; rcases (show i = 0 ∨ i = 1 by simp [cellCount] at hi; omega) with rfl | rfl <;> rfl)
      (fun p => p.1) hint ex_density.1 4 3 ex_density.2.1 ex_density.2.2
    refine ⟨d', e, fun i hi => hv i hi ?_⟩
    rw [exS_region, ← exD_region]
    exact Set.subset_iUnion₂_of_subset i (Finset.mem_range.mpr hi) (fun _ h => h)
  · obtain ⟨d', e, hv⟩ := C102_total refGels refGels_contract Witness.stdSort Witness.stdSort_ok .keptBuffer
      (3, 2) (2, 3) (0, 0) exDx exDy exSx exSy (by decide) (by decide) (by decide) (by decide) (by decide) (by decide) ex_clean
      o o' h0 h [2, 2] [0, 0] (by decide) (by decide) exD_noOverlap exS_noOverlap (by decide) (exD_region.trans exS_region.symm)
      (fun p => p.1) hint ex_density.1
    refine ⟨d', e, ?_⟩
    refine Eq.trans hv ?_
    rw [exS_region, (ex_int_box 0 4 0 4 (by norm_num) (by norm_num)).1]
    norm_num

end Sg.Props
