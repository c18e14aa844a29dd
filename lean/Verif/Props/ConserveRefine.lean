import Verif.Spec.Refine
import Verif.Props.ConserveInvariance
/-
Property C144: conservative regridding of grids whose cells are cut into parts.
-/
namespace Sg.Props
open Sg.LinearSolve Sg.Triangulate Sg.QuadIntersect Sg.Conserve Sg.Spec Sg.Plane Sg.Witness MeasureTheory

/-- The area of what a set has in common with a cell is that of what it has in common with the parts of the cell. -/
theorem area_owned {n n' : Nat} {q q' : Nat → Quad ℝ} {owner : Nat → Nat} (h : Refines n q n' q' owner)
    (hno : ∀ k < n', ∀ l < n', k ≠ l → area (quadRegion (q' k) ∩ quadRegion (q' l)) = 0) {A : Set P2} (hA : IsCompact A) (i : Nat) (hi : i < n) :
    area (A ∩ quadRegion (q i)) = ∑ k ∈ (Finset.range n').filter (fun k => owner k = i), area (A ∩ quadRegion (q' k)) := by
  have hR : ∀ k, IsCompact (quadRegion (q' k)) := fun k => isCompact_region _
  have hfin : ∀ k, volume (A ∩ quadRegion (q' k)) ≠ ⊤ := fun k => (hA.inter (hR k)).measure_lt_top.ne
  rw [h.made i hi]
  unfold area
  rw [Set.inter_iUnion₂, measure_biUnion_finset₀, ENNReal.toReal_sum fun k _ => hfin k]
  · intro k hk l hl hkl
    have hk' : k < n' := Finset.mem_range.mp (Finset.mem_filter.mp hk).1
    have hl' : l < n' := Finset.mem_range.mp (Finset.mem_filter.mp hl).1
    have h0 : volume (quadRegion (q' k) ∩ quadRegion (q' l)) = 0 := by
      rcases (ENNReal.toReal_eq_zero_iff _).mp (hno k hk' l hl' hkl) with h | h
      · exact h
      · exact absurd h ((hR k).inter (hR l)).measure_lt_top.ne
    exact measure_mono_null (show (A ∩ quadRegion (q' k)) ∩ (A ∩ quadRegion (q' l)) ⊆ quadRegion (q' k) ∩ quadRegion (q' l) from
      fun x hx => ⟨hx.1.2, hx.2.2⟩) h0
  · intro k _
    exact ((hA.inter (hR k)).isClosed.measurableSet).nullMeasurableSet

theorem part_subset {n n' : Nat} {q q' : Nat → Quad ℝ} {owner : Nat → Nat} (h : Refines n q n' q' owner) (k : Nat) (hk : k < n') :
    quadRegion (q' k) ⊆ quadRegion (q (owner k)) := by
  rw [h.made _ (h.owned k hk)]
  exact Set.subset_biUnion_of_mem (u := fun k => quadRegion (q' k)) (Finset.mem_coe.mpr (Finset.mem_filter.mpr ⟨Finset.mem_range.mpr hk, rfl⟩))

/-- The cells of the sum over parts, cell by cell. -/
theorem sum_owned {n n' : Nat} {q q' : Nat → Quad ℝ} {owner : Nat → Nat} (h : Refines n q n' q' owner) (f : Nat → ℝ) :
    ∑ i ∈ Finset.range n, ∑ k ∈ (Finset.range n').filter (fun k => owner k = i), f k = ∑ k ∈ Finset.range n', f k :=
  Finset.sum_fiberwise_of_maps_to (fun k hk => Finset.mem_range.mpr (h.owned k (Finset.mem_range.mp hk))) f

/-- What a user obtains: the values after setting the grids on an object without weights, computing the weights and applying them to `src`, for a result array
that held 0 in all cells. -/
def RegridOf (ddims : Nat × Nat) (dx dy : List ℝ) (sdims : Nat × Nat) (sx sy : List ℝ) (src d' : List ℝ) : Prop :=
  ∃ (g : Gels ℝ) (sort : List P2 → List P2) (mode : Mode) (per : Nat × Nat) (o o' : Interp ℝ) (d : List ℝ),
    GelsContract g ∧ (∀ l, IsStdSort l (sort l)) ∧ o.weights = [] ∧ setAndCompute g sort mode o ddims dx dy sdims per sx sy = .ok o' ∧
    cellCount sdims ≤ src.length ∧ cellCount ddims ≤ d.length ∧ (∀ i < cellCount ddims, d.getD i 0 = 0) ∧ o'.apply src d = .ok d'

theorem regrid_value {ddims : Nat × Nat} {dx dy : List ℝ} {sdims : Nat × Nat} {sx sy : List ℝ} {src d' : List ℝ}
    (hc : CleanGrids ddims dx dy sdims sx sy) (hn : 0 < cellCount sdims) (h : RegridOf ddims dx dy sdims sx sy src d') (i : Nat) (hi : i < cellCount ddims) :
    d'.getD i 0 = ∑ j ∈ Finset.range (cellCount sdims), overlapFraction (gridCell ddims dx dy i) (gridCell sdims sx sy j) * src.getD j 0 := by
  obtain ⟨g, sort, mode, per, o, o', d, hg, hsort, h0, h, hs, hd, hz, ha⟩ := h
  have hT := setAndCompute_spec g hg sort hsort mode ddims sdims per dx dy sx sy hc.hd hc.hs hc.hdx hc.hdy hc.hsx hc.hsy hc.cells hn o o' h0 h
  obtain ⟨d'', e, -, hv⟩ := apply_value hT hn (fun i hi => (hc.cells i hi 0 hn).dst) src d hs hd
  have : d'' = d' := by rw [e] at ha; exact Except.ok.inj ha
  subst this
  exact hv i hi fun _ => hz i hi

section
variable {ddims ddims' sdims sdims' : Nat × Nat} {dx dy dx' dy' sx sy sx' sy' : List ℝ} {owner : Nat → Nat}

/-- **C144** Destination cells cut into parts: the amount (area times value) in a cell is the sum of the amounts in its parts, so the coarse result can be obtained
from the fine one. -/
theorem C144_destination (hc : CleanGrids ddims dx dy sdims sx sy) (hc' : CleanGrids ddims' dx' dy' sdims sx sy) (hn : 0 < cellCount sdims)
    (hr : Refines (cellCount ddims) (gridCell ddims dx dy) (cellCount ddims') (gridCell ddims' dx' dy') owner) (hno : NoOverlap ddims' dx' dy')
    (src d d' : List ℝ) (h : RegridOf ddims dx dy sdims sx sy src d) (h' : RegridOf ddims' dx' dy' sdims sx sy src d') (i : Nat) (hi : i < cellCount ddims) :
    area (quadRegion (gridCell ddims dx dy i)) * d.getD i 0 =
      ∑ k ∈ (Finset.range (cellCount ddims')).filter (fun k => owner k = i), area (quadRegion (gridCell ddims' dx' dy' k)) * d'.getD k 0 := by
  rw [regrid_value hc hn h i hi, Finset.mul_sum]
  have e1 : ∀ k ∈ (Finset.range (cellCount ddims')).filter (fun k => owner k = i), area (quadRegion (gridCell ddims' dx' dy' k)) * d'.getD k 0 =
      ∑ j ∈ Finset.range (cellCount sdims), area (quadRegion (gridCell sdims sx sy j) ∩ quadRegion (gridCell ddims' dx' dy' k)) * src.getD j 0 := by
    intro k hk
    have hk' := Finset.mem_range.mp (Finset.mem_filter.mp hk).1
    rw [regrid_value hc' hn h' k hk', Finset.mul_sum]
    refine Finset.sum_congr rfl fun j _ => ?_
    rw [overlapFraction, ← mul_assoc, mul_div_cancel₀ _ (area_pos (hc'.cells k hk' 0 hn).dst).ne', Set.inter_comm]
  rw [Finset.sum_congr rfl e1, Finset.sum_comm]
  refine Finset.sum_congr rfl fun j _ => ?_
  rw [← Finset.sum_mul, ← area_owned hr hno (isCompact_region _) i hi, overlapFraction, ← mul_assoc, mul_div_cancel₀ _ (area_pos (hc.cells i hi 0 hn).dst).ne',
    Set.inter_comm]

/-- **C144** Source cells cut into parts that keep the value of their cell: the result is the same. -/
theorem C144_source (hc : CleanGrids ddims dx dy sdims sx sy) (hc' : CleanGrids ddims dx dy sdims' sx' sy') (hn : 0 < cellCount sdims) (hn' : 0 < cellCount sdims')
    (hr : Refines (cellCount sdims) (gridCell sdims sx sy) (cellCount sdims') (gridCell sdims' sx' sy') owner) (hno : NoOverlap sdims' sx' sy')
    (src src' d d' : List ℝ) (hsrc : ∀ k < cellCount sdims', src'.getD k 0 = src.getD (owner k) 0)
    (h : RegridOf ddims dx dy sdims sx sy src d) (h' : RegridOf ddims dx dy sdims' sx' sy' src' d') (i : Nat) (hi : i < cellCount ddims) :
    d'.getD i 0 = d.getD i 0 := by
  rw [regrid_value hc hn h i hi, regrid_value hc' hn' h' i hi, ← sum_owned hr]
  refine Finset.sum_congr rfl fun j hj => ?_
  unfold overlapFraction
  rw [area_owned hr hno (isCompact_region _) j (Finset.mem_range.mp hj), Finset.sum_div, Finset.sum_mul]
  refine Finset.sum_congr rfl fun k hk => ?_
  obtain ⟨hk, ho⟩ := Finset.mem_filter.mp hk
  rw [hsrc k (Finset.mem_range.mp hk), ho]

/-- **C144** Regridding to a grid whose cells are parts of the source cells gives each part the value of its cell. -/
theorem C144_parts (hc : CleanGrids sdims' sx' sy' sdims sx sy) (hn : 0 < cellCount sdims)
    (hr : Refines (cellCount sdims) (gridCell sdims sx sy) (cellCount sdims') (gridCell sdims' sx' sy') owner) (hno : NoOverlap sdims sx sy)
    (src d : List ℝ) (h : RegridOf sdims' sx' sy' sdims sx sy src d) (k : Nat) (hk : k < cellCount sdims') : d.getD k 0 = src.getD (owner k) 0 := by
  have hsub := part_subset hr k hk
  rw [regrid_value hc hn h k hk, Finset.sum_eq_single_of_mem (owner k) (Finset.mem_range.mpr (hr.owned k hk))]
  · rw [overlapFraction, Set.inter_eq_left.mpr hsub, div_self (area_pos (hc.cells k hk 0 hn).dst).ne', one_mul]
  · intro j hj hne
    have h0 := hno _ (hr.owned k hk) j (Finset.mem_range.mp hj) (Ne.symm hne)
    have hfin : volume (quadRegion (gridCell sdims sx sy (owner k)) ∩ quadRegion (gridCell sdims sx sy j)) ≠ ⊤ :=
      ((isCompact_region _).inter (isCompact_region _)).measure_lt_top.ne
    have hz : volume (quadRegion (gridCell sdims sx sy (owner k)) ∩ quadRegion (gridCell sdims sx sy j)) = 0 :=
      ((ENNReal.toReal_eq_zero_iff _).mp h0).resolve_right hfin
    have : area (quadRegion (gridCell sdims' sx' sy' k) ∩ quadRegion (gridCell sdims sx sy j)) = 0 := by
      unfold area
      rw [measure_mono_null (Set.inter_subset_inter_left _ hsub) hz, ENNReal.toReal_zero]
    rw [overlapFraction, this, zero_div, zero_mul]

/-- **C144** Regridding in two steps, through a grid whose cells are parts of the source cells, gives what regridding in one step gives. -/
theorem C144_two_steps (hc : CleanGrids ddims dx dy sdims sx sy) (hc1 : CleanGrids sdims' sx' sy' sdims sx sy) (hc2 : CleanGrids ddims dx dy sdims' sx' sy')
    (hn : 0 < cellCount sdims) (hn' : 0 < cellCount sdims')
    (hr : Refines (cellCount sdims) (gridCell sdims sx sy) (cellCount sdims') (gridCell sdims' sx' sy') owner) (hno : NoOverlap sdims sx sy)
    (hno' : NoOverlap sdims' sx' sy') (src mid d d' : List ℝ) (h : RegridOf ddims dx dy sdims sx sy src d)
    (h1 : RegridOf sdims' sx' sy' sdims sx sy src mid) (h2 : RegridOf ddims dx dy sdims' sx' sy' mid d') (i : Nat) (hi : i < cellCount ddims) :
    d'.getD i 0 = d.getD i 0 :=
  C144_source hc hc2 hn hn' hr hno' src mid d d' (fun k hk => C144_parts hc1 hn hr hno src mid h1 k hk) h h2 i hi

end

/-! ### Cases: the square [0,4] x [0,4] as one cell, cut into columns and into rows -/

def exOx : List ℝ := [0, 0, 4, 4]
def exOy : List ℝ := [0, 4, 0, 4]

theorem exO_cell : ∀ i < cellCount (2, 2), gridCell (2, 2) exOx exOy i = zquad (exZ 0 4 0 4) := by
  intro i hi
  have : i = 0 := by simp [cellCount] at hi; omega
  subst this
  funext k
  fin_cases k <;> simp [gridCell, gridCellAt, gridNode, exOx, exOy, zquad, exZ]

theorem exO_region : quadRegion (zquad (exZ 0 4 0 4)) = Set.Icc (0 : ℝ) 4 ×ˢ Set.Icc (0 : ℝ) 4 := by
  rw [ex_box (by decide) (by decide)]; push_cast; rfl

theorem exO_noOverlap : NoOverlap (2, 2) exOx exOy := by
  intro i hi j hj hij
  simp [cellCount] at hi hj
  omega

theorem columns_refine : Refines (cellCount (2, 2)) (gridCell (2, 2) exOx exOy) (cellCount (3, 2)) (gridCell (3, 2) exDx exDy) fun _ => 0 := by
  refine ⟨fun k _ => by simp [cellCount], fun i hi => ?_⟩
  rw [exO_cell i hi, exO_region, ← exD_region]
  have : i = 0 := by simp [cellCount] at hi; omega
  subst this
  simp [gridRegion]

theorem rows_refine : Refines (cellCount (2, 2)) (gridCell (2, 2) exOx exOy) (cellCount (2, 3)) (gridCell (2, 3) exSx exSy) fun _ => 0 := by
  refine ⟨fun k _ => by simp [cellCount], fun i hi => ?_⟩
  rw [exO_cell i hi, exO_region, ← exS_region]
  have : i = 0 := by simp [cellCount] at hi; omega
  subst this
  simp [gridRegion]

theorem clean_columns_rows : CleanGrids (3, 2) exDx exDy (2, 3) exSx exSy :=
  ⟨by decide, by decide, by decide, by decide, by decide, by decide, ex_clean⟩

theorem clean_one_rows : CleanGrids (2, 2) exOx exOy (2, 3) exSx exSy := by
  refine ⟨by decide, by decide, by decide, by decide, by decide, by decide, fun i hi j hj => ?_⟩
  rw [exO_cell i hi, exS_cell j hj]
  split <;> exact cleanCells_int (by decide) (by decide) (by decide) (by decide)

theorem clean_rows_one : CleanGrids (2, 3) exSx exSy (2, 2) exOx exOy := by
  refine ⟨by decide, by decide, by decide, by decide, by decide, by decide, fun i hi j hj => ?_⟩
  rw [exO_cell j hj, exS_cell i hi]
  split <;> exact cleanCells_int (by decide) (by decide) (by decide) (by decide)

theorem clean_columns_one : CleanGrids (3, 2) exDx exDy (2, 2) exOx exOy := by
  refine ⟨by decide, by decide, by decide, by decide, by decide, by decide, fun i hi j hj => ?_⟩
  rw [exO_cell j hj, exD_cell i hi]
  split <;> exact cleanCells_int (by decide) (by decide) (by decide) (by decide)

/-- Two boxes with a place inside both. -/
theorem boxes_meet {a b c d a' b' c' d' : ℤ} (h1 : a ≤ b) (h2 : c ≤ d) (h3 : a' ≤ b') (h4 : c' ≤ d') (p : ℝ × ℝ)
    (hp : (max (a : ℝ) a' < p.1 ∧ p.1 < min (b : ℝ) b') ∧ max (c : ℝ) c' < p.2 ∧ p.2 < min (d : ℝ) d') :
    (interior (quadRegion (zquad (exZ a b c d)) ∩ quadRegion (zquad (exZ a' b' c' d')))).Nonempty := by
  rw [ex_box h1 h2, ex_box h3 h4, ex_inter, interior_prod_eq, interior_Icc, interior_Icc]
  exact ⟨p, hp⟩

/-- All the data needed can be obtained. -/
theorem regrid_exists {ddims : Nat × Nat} {dx dy : List ℝ} {sdims : Nat × Nat} {sx sy : List ℝ} (hc : CleanGrids ddims dx dy sdims sx sy) (hn : 0 < cellCount sdims)
    (hover : ∀ i < cellCount ddims, ∀ j < cellCount sdims,
      (interior (quadRegion (gridCell ddims dx dy i) ∩ quadRegion (gridCell sdims sx sy j))).Nonempty) (src : List ℝ) (hs : cellCount sdims ≤ src.length) :
    ∃ d', RegridOf ddims dx dy sdims sx sy src d' ∧ cellCount ddims ≤ d'.length := by
  obtain ⟨o', h⟩ := C65_safe_partial refGels refGels_contract stdSort stdSort_ok ddims sdims (0, 0) dx dy sx sy
    hc.hd hc.hs hc.hdx hc.hdy hc.hsx hc.hsy hc.cells { src := none, dst := none, weights := [], it := none, it2 := none }
    (fun i hi j hj => Or.inl (hover i hi j hj)) hn
  have hT := setAndCompute_spec refGels refGels_contract stdSort stdSort_ok .keptBuffer ddims sdims (0, 0) dx dy sx sy hc.hd hc.hs hc.hdx hc.hdy hc.hsx hc.hsy
    hc.cells hn _ o' rfl h
  obtain ⟨d', e, hl, -⟩ := apply_value hT hn (fun i hi => (hc.cells i hi 0 hn).dst) src (List.replicate (cellCount ddims) 0) hs (by simp)
  refine ⟨d', ⟨refGels, stdSort, .keptBuffer, (0, 0), _, o', _, refGels_contract, stdSort_ok, rfl, h, hs, by simp, ?_, e⟩, by rw [hl]; simp⟩
  intro i hi
  simp [List.getD_eq_getElem?_getD, hi]

theorem meet_columns_rows : ∀ i < cellCount (3, 2), ∀ j < cellCount (2, 3),
    (interior (quadRegion (gridCell (3, 2) exDx exDy i) ∩ quadRegion (gridCell (2, 3) exSx exSy j))).Nonempty := by
  intro i hi j hj
  rw [exD_cell i hi, exS_cell j hj]
  split <;> split
  · exact boxes_meet (by decide) (by decide) (by decide) (by decide) (1/2, 1/2) (by norm_num)
  · exact boxes_meet (by decide) (by decide) (by decide) (by decide) (1/2, 2) (by norm_num)
  · exact boxes_meet (by decide) (by decide) (by decide) (by decide) (2, 1/2) (by norm_num)
  · exact boxes_meet (by decide) (by decide) (by decide) (by decide) (2, 2) (by norm_num)

theorem meet_one_rows : ∀ i < cellCount (2, 2), ∀ j < cellCount (2, 3),
    (interior (quadRegion (gridCell (2, 2) exOx exOy i) ∩ quadRegion (gridCell (2, 3) exSx exSy j))).Nonempty := by
  intro i hi j hj
  rw [exO_cell i hi, exS_cell j hj]
  split
  · exact boxes_meet (by decide) (by decide) (by decide) (by decide) (1/2, 1/2) (by norm_num)
  · exact boxes_meet (by decide) (by decide) (by decide) (by decide) (1/2, 2) (by norm_num)

theorem meet_columns_one : ∀ i < cellCount (3, 2), ∀ j < cellCount (2, 2),
    (interior (quadRegion (gridCell (3, 2) exDx exDy i) ∩ quadRegion (gridCell (2, 2) exOx exOy j))).Nonempty := by
  intro i hi j hj
  rw [exD_cell i hi, exO_cell j hj]
  split
  · exact boxes_meet (by decide) (by decide) (by decide) (by decide) (1/2, 1/2) (by norm_num)
  · exact boxes_meet (by decide) (by decide) (by decide) (by decide) (2, 1/2) (by norm_num)

/-- From rows to columns, and from rows to the whole square: the value of the square is 1/4 of that of the first column and 3/4 of that of the second. -/
example (a b : ℝ) : ∃ d d', RegridOf (2, 2) exOx exOy (2, 3) exSx exSy [a, b] d ∧ RegridOf (3, 2) exDx exDy (2, 3) exSx exSy [a, b] d' ∧
    16 * d.getD 0 0 = 4 * d'.getD 0 0 + 12 * d'.getD 1 0 := by
  obtain ⟨d, h, -⟩ := regrid_exists clean_one_rows (by decide) meet_one_rows [a, b] (by simp [cellCount])
  obtain ⟨d', h', -⟩ := regrid_exists clean_columns_rows (by decide) meet_columns_rows [a, b] (by simp [cellCount])
  refine ⟨d, d', h, h', ?_⟩
  have := C144_destination clean_one_rows clean_columns_rows (by decide) columns_refine exD_noOverlap [a, b] d d' h h' 0 (by decide)
  rw [exO_cell 0 (by decide), ex_box (by decide) (by decide), area_box (by norm_num) (by norm_num)] at this
  rw [show cellCount (3, 2) = 2 from rfl] at this
  simp only [Finset.filter_true, Finset.sum_range_succ, Finset.sum_range_zero] at this
  rw [exD_cell 0 (by decide), exD_cell 1 (by decide), if_pos rfl, if_neg (by decide), ex_box (by decide) (by decide), ex_box (by decide) (by decide),
    area_box (by norm_num) (by norm_num), area_box (by norm_num) (by norm_num)] at this
  norm_num at this
  simpa using this

/-- From the square to columns, directly and through rows. -/
example (a : ℝ) : ∃ d mid d', RegridOf (3, 2) exDx exDy (2, 2) exOx exOy [a] d ∧ RegridOf (2, 3) exSx exSy (2, 2) exOx exOy [a] mid ∧
    RegridOf (3, 2) exDx exDy (2, 3) exSx exSy mid d' ∧ d'.getD 1 0 = d.getD 1 0 := by
  obtain ⟨d, h, -⟩ := regrid_exists clean_columns_one (by decide) meet_columns_one [a] (by simp [cellCount])
  obtain ⟨mid, h1, hl⟩ := regrid_exists clean_rows_one (by decide) (fun i hi j hj => by rw [Set.inter_comm]; exact meet_one_rows j hj i hi) [a] (by simp [cellCount])
  obtain ⟨d', h2, -⟩ := regrid_exists clean_columns_rows (by decide) meet_columns_rows mid hl
  exact ⟨d, mid, d', h, h1, h2, C144_two_steps clean_columns_one clean_rows_one clean_columns_rows (by decide) (by decide) rows_refine exO_noOverlap exS_noOverlap
    [a] mid d d' h h1 h2 1 (by decide)⟩

end Sg.Props
