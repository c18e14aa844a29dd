import Verif.Props.ConserveInterp
import Verif.Proof.ConserveSums
/-
Properties C57 and C58: sums of the weights and conservation of the total.
-/
namespace Sg.Props
open Sg.LinearSolve Sg.Triangulate Sg.QuadIntersect Sg.Conserve Sg.Spec Sg.Plane MeasureTheory

/-- The region covered by a grid. -/
def gridRegion (dims : Nat × Nat) (x y : List ℝ) : Set (ℝ × ℝ) :=
  ⋃ i ∈ Finset.range (cellCount dims), quadRegion (gridCell dims x y i)

/-- Different cells of the grid have no area in common. -/
def NoOverlap (dims : Nat × Nat) (x y : List ℝ) : Prop :=
  ∀ i < cellCount dims, ∀ j < cellCount dims, i ≠ j → area (quadRegion (gridCell dims x y i) ∩ quadRegion (gridCell dims x y j)) = 0

section exact
variable (g : Gels ℝ) (hg : GelsContract g) (sort : List P2 → List P2) (hsort : ∀ l, IsStdSort l (sort l)) (mode : Mode)
  (ddims sdims per : Nat × Nat) (dx dy sx sy : List ℝ)
  (hd : 1 ≤ ddims.1 ∧ 1 ≤ ddims.2) (hs : 1 ≤ sdims.1 ∧ 1 ≤ sdims.2)
  (hdx : ddims.1 * ddims.2 ≤ dx.length) (hdy : ddims.1 * ddims.2 ≤ dy.length)
  (hsx : sdims.1 * sdims.2 ≤ sx.length) (hsy : sdims.1 * sdims.2 ≤ sy.length)
  (hc : ∀ i < cellCount ddims, ∀ j < cellCount sdims, CleanCells (gridCell ddims dx dy i) (gridCell sdims sx sy j))
include hg hsort hd hs hdx hdy hsx hsy hc

omit hg hsort hd hs hdx hdy hsx hsy in
theorem fractions_sum (i : Nat) (hi : i < cellCount ddims) (hn : 0 < cellCount sdims)
    (hcov : quadRegion (gridCell ddims dx dy i) ⊆ gridRegion sdims sx sy) (hno : NoOverlap sdims sx sy) :
    ∑ j ∈ Finset.range (cellCount sdims), overlapFraction (gridCell ddims dx dy i) (gridCell sdims sx sy j) = 1 := by
  have hpos := area_pos (hc i hi 0 hn).dst
  unfold overlapFraction
  rw [← Finset.sum_div, ← area_parts (isCompact_region _) (fun j => quadRegion (gridCell sdims sx sy j))
    (fun j => isCompact_region _) _ hno]
  have : quadRegion (gridCell ddims dx dy i) ∩ (⋃ j ∈ Finset.range (cellCount sdims), quadRegion (gridCell sdims sx sy j)) =
      quadRegion (gridCell ddims dx dy i) := Set.inter_eq_left.mpr hcov
  rw [this, div_self hpos.ne']

omit hg hsort hd hs hdx hdy hsx hsy hc in
theorem cells_of_cover (q : Quad ℝ) (hcov : quadRegion q ⊆ gridRegion sdims sx sy) : 0 < cellCount sdims := by
  rcases Nat.eq_zero_or_pos (cellCount sdims) with h | h
  · exfalso
    have := hcov (mem_region q 0)
    simp [gridRegion, h] at this
  · exact h

/-- C57: if the source cells cover a destination cell and do not overlap each other, its weights sum to 1. -/
theorem C57_sum_one (o o' : Interp ℝ) (h0 : o.weights = [])
    (h : setAndCompute g sort mode o ddims dx dy sdims per sx sy = .ok o') (i : Nat) (hi : i < cellCount ddims)
    (hcov : quadRegion (gridCell ddims dx dy i) ⊆ gridRegion sdims sx sy) (hno : NoOverlap sdims sx sy) :
    ∑ j ∈ Finset.range (cellCount sdims), weightOf o'.weights i j = 1 := by
  rw [← fractions_sum ddims sdims dx dy sx sy hc i hi (cells_of_cover sdims sx sy _ hcov) hcov hno]
  refine Finset.sum_congr rfl fun j hj => ?_
  exact C56_weight g hg sort hsort mode ddims sdims per dx dy sx sy hd hs hdx hdy hsx hsy hc o o' h0 h i hi j
    (Finset.mem_range.mp hj)

/-- C57: a constant source field gives the constant in the destination cells that are covered. -/
theorem C57_constant (o o' : Interp ℝ) (h0 : o.weights = [])
    (h : setAndCompute g sort mode o ddims dx dy sdims per sx sy = .ok o')
    (srcData dstData : List ℝ) (hlen : cellCount sdims ≤ srcData.length) (hlen' : cellCount ddims ≤ dstData.length)
    (c : ℝ) (hconst : ∀ j < cellCount sdims, srcData.getD j 0 = c) (hno : NoOverlap sdims sx sy) (hn : 0 < cellCount sdims) :
    ∃ d', o'.apply srcData dstData = .ok d' ∧ d'.length = dstData.length ∧
      ∀ i < cellCount ddims, quadRegion (gridCell ddims dx dy i) ⊆ gridRegion sdims sx sy → d'.getD i 0 = c := by
  have hT := setAndCompute_spec g hg sort hsort mode ddims sdims per dx dy sx sy hd hs hdx hdy hsx hsy hc hn o o' h0 h
  obtain ⟨d', e, hl, hv⟩ := apply_value hT hn (fun i hi => (hc i hi 0 hn).dst) srcData dstData hlen hlen'
  refine ⟨d', e, hl, ?_⟩
  intro i hi hcov
  have hsum := fractions_sum ddims sdims dx dy sx sy hc i hi hn hcov hno
  rw [hv i hi, ← one_mul c, ← hsum, Finset.sum_mul]
  · refine Finset.sum_congr rfl fun j hj => ?_
    rw [hconst j (Finset.mem_range.mp hj)]
  · intro hz
    exfalso
    have : ∑ j ∈ Finset.range (cellCount sdims), overlapFraction (gridCell ddims dx dy i) (gridCell sdims sx sy j) = 0 :=
      Finset.sum_eq_zero fun j hj => by rw [overlapFraction, hz j (Finset.mem_range.mp hj), zero_div]
    rw [hsum] at this
    exact one_ne_zero this

/-- C58: after `apply` the total over the destination cells of area times value is the total over the source cells of
value times the area that lies in the destination grid.  Destination cells that no source cell overlaps must hold 0
before. -/
theorem C58_total (o o' : Interp ℝ) (h0 : o.weights = [])
    (h : setAndCompute g sort mode o ddims dx dy sdims per sx sy = .ok o')
    (srcData dstData : List ℝ) (hlen : cellCount sdims ≤ srcData.length) (hlen' : cellCount ddims ≤ dstData.length)
    (hno : NoOverlap ddims dx dy) (hn : 0 < cellCount sdims)
    (hzero : ∀ i < cellCount ddims,
      (∀ j < cellCount sdims, area (quadRegion (gridCell ddims dx dy i) ∩ quadRegion (gridCell sdims sx sy j)) = 0) →
      dstData.getD i 0 = 0) :
    ∃ d', o'.apply srcData dstData = .ok d' ∧ d'.length = dstData.length ∧
      ∑ i ∈ Finset.range (cellCount ddims), area (quadRegion (gridCell ddims dx dy i)) * d'.getD i 0 =
        ∑ j ∈ Finset.range (cellCount sdims),
          area (quadRegion (gridCell sdims sx sy j) ∩ gridRegion ddims dx dy) * srcData.getD j 0 := by
  have hT := setAndCompute_spec g hg sort hsort mode ddims sdims per dx dy sx sy hd hs hdx hdy hsx hsy hc hn o o' h0 h
  obtain ⟨d', e, hl, hv⟩ := apply_value hT hn (fun i hi => (hc i hi 0 hn).dst) srcData dstData hlen hlen'
  refine ⟨d', e, hl, ?_⟩
  have h1 : ∀ i ∈ Finset.range (cellCount ddims), area (quadRegion (gridCell ddims dx dy i)) * d'.getD i 0 =
      ∑ j ∈ Finset.range (cellCount sdims),
        area (quadRegion (gridCell sdims sx sy j) ∩ quadRegion (gridCell ddims dx dy i)) * srcData.getD j 0 := by
    intro i hi
    have hi' := Finset.mem_range.mp hi
    rw [hv i hi' (hzero i hi'), Finset.mul_sum]
    refine Finset.sum_congr rfl fun j _ => ?_
    rw [overlapFraction, ← mul_assoc, mul_div_cancel₀ _ (area_pos (hc i hi' 0 hn).dst).ne', Set.inter_comm]
  rw [Finset.sum_congr rfl h1, Finset.sum_comm]
  refine Finset.sum_congr rfl fun j _ => ?_
  rw [← Finset.sum_mul, gridRegion, area_parts (isCompact_region _) (fun i => quadRegion (gridCell ddims dx dy i))
    (fun i => isCompact_region _) _ hno]

/-- C58: if both grids cover the same region the total is conserved, whatever the destination array held before. -/
theorem C58_conserved (o o' : Interp ℝ) (h0 : o.weights = [])
    (h : setAndCompute g sort mode o ddims dx dy sdims per sx sy = .ok o')
    (srcData dstData : List ℝ) (hlen : cellCount sdims ≤ srcData.length) (hlen' : cellCount ddims ≤ dstData.length)
    (hno : NoOverlap ddims dx dy) (hno' : NoOverlap sdims sx sy) (hn : 0 < cellCount sdims)
    (hsame : gridRegion ddims dx dy = gridRegion sdims sx sy) :
    ∃ d', o'.apply srcData dstData = .ok d' ∧ d'.length = dstData.length ∧
      ∑ i ∈ Finset.range (cellCount ddims), area (quadRegion (gridCell ddims dx dy i)) * d'.getD i 0 =
        ∑ j ∈ Finset.range (cellCount sdims), area (quadRegion (gridCell sdims sx sy j)) * srcData.getD j 0 := by
  obtain ⟨d', e, hl, ht⟩ := C58_total g hg sort hsort mode ddims sdims per dx dy sx sy hd hs hdx hdy hsx hsy hc o o' h0 h
    srcData dstData hlen hlen' hno hn (by
      intro i hi hz
      exfalso
      have hcov : quadRegion (gridCell ddims dx dy i) ⊆ gridRegion sdims sx sy := by
        rw [← hsame]
        exact Set.subset_biUnion_of_mem (u := fun i => quadRegion (gridCell ddims dx dy i)) (Finset.mem_range.mpr hi)
      have hsum := fractions_sum ddims sdims dx dy sx sy hc i hi hn hcov hno'
      have : ∑ j ∈ Finset.range (cellCount sdims), overlapFraction (gridCell ddims dx dy i) (gridCell sdims sx sy j) = 0 :=
        Finset.sum_eq_zero fun j hj => by rw [overlapFraction, hz j (Finset.mem_range.mp hj), zero_div]
      rw [hsum] at this
      exact one_ne_zero this)
  refine ⟨d', e, hl, ht.trans ?_⟩
  refine Finset.sum_congr rfl fun j hj => ?_
  have : quadRegion (gridCell sdims sx sy j) ∩ gridRegion ddims dx dy = quadRegion (gridCell sdims sx sy j) := by
    rw [hsame]
    exact Set.inter_eq_left.mpr
      (Set.subset_biUnion_of_mem (u := fun i => quadRegion (gridCell sdims sx sy i)) hj)
  rw [this]

end exact
end Sg.Props
