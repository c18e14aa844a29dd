import Verif.Proof.CellsInt
/-
Concrete grids that meet the hypotheses of the theorems C56 to C60, C63 and C65: the square [0,4] x [0,4] cut into two
columns (destination) and into two rows of different heights (source).
-/
namespace Sg.Props
open Sg.LinearSolve Sg.Triangulate Sg.QuadIntersect Sg.Conserve Sg.Spec Sg.Plane Sg.Witness MeasureTheory

/-- Columns [0,1] and [1,4]. -/
def exDx : List ℝ := [0, 0, 1, 1, 4, 4]
def exDy : List ℝ := [0, 4, 0, 4, 0, 4]
/-- Rows [0,1] and [1,4]. -/
def exSx : List ℝ := [0, 0, 0, 4, 4, 4]
def exSy : List ℝ := [0, 1, 4, 0, 1, 4]

def exZ (a b c d : ℤ) : Fin 4 → ℤ × ℤ := ![(a, c), (b, c), (b, d), (a, d)]

theorem exD_cell : ∀ i < cellCount (3, 2), gridCell (3, 2) exDx exDy i = zquad (if i = 0 then exZ 0 1 0 4 else exZ 1 4 0 4) := by
  intro i hi
  rcases (show i = 0 ∨ i = 1 by simp [cellCount] at hi; omega) with rfl | rfl <;>
  · funext k
    fin_cases k <;> simp [gridCell, gridCellAt, gridNode, exDx, exDy, zquad, exZ]

theorem exS_cell : ∀ i < cellCount (2, 3), gridCell (2, 3) exSx exSy i = zquad (if i = 0 then exZ 0 4 0 1 else exZ 0 4 1 4) := by
  intro i hi
  rcases (show i = 0 ∨ i = 1 by simp [cellCount] at hi; omega) with rfl | rfl <;>
  · funext k
    fin_cases k <;> simp [gridCell, gridCellAt, gridNode, exSx, exSy, zquad, exZ]

theorem ex_clean : ∀ i < cellCount (3, 2), ∀ j < cellCount (2, 3),
    CleanCells (gridCell (3, 2) exDx exDy i) (gridCell (2, 3) exSx exSy j) := by
  intro i hi j hj
  rw [exD_cell i hi, exS_cell j hj]
  split <;> split <;> exact cleanCells_int (by decide) (by decide) (by decide) (by decide)

theorem ex_box {a b c d : ℤ} (hab : a ≤ b) (hcd : c ≤ d) :
    quadRegion (zquad (exZ a b c d)) = Set.Icc (a : ℝ) b ×ˢ Set.Icc (c : ℝ) d :=
  box_region (by exact_mod_cast hab) (by exact_mod_cast hcd) rfl rfl rfl rfl

theorem exD_region : gridRegion (3, 2) exDx exDy = Set.Icc (0 : ℝ) 4 ×ˢ Set.Icc (0 : ℝ) 4 := by
  have : gridRegion (3, 2) exDx exDy = quadRegion (gridCell (3, 2) exDx exDy 0) ∪ quadRegion (gridCell (3, 2) exDx exDy 1) := by
    unfold gridRegion
    rw [show cellCount (3, 2) = 2 from rfl]
    ext p
    simp only [Set.mem_iUnion, Finset.mem_range, Set.mem_union, exists_prop]
    constructor
    · rintro ⟨i, hi, h⟩
      rcases (show i = 0 ∨ i = 1 by omega) with rfl | rfl
      · exact Or.inl h
      · exact Or.inr h
    · rintro (h | h)
      · exact ⟨0, by omega, h⟩
      · exact ⟨1, by omega, h⟩
  rw [this, exD_cell 0 (by decide), exD_cell 1 (by decide), if_pos rfl, if_neg (by decide), ex_box (by decide) (by decide),
    ex_box (by decide) (by decide)]
  ext ⟨x, y⟩
  simp only [Set.mem_union, Set.mem_prod, Set.mem_Icc]
  push_cast
  constructor
  · rintro (h | h) <;> refine ⟨⟨?_, ?_⟩, ?_, ?_⟩ <;> linarith [h.1.1, h.1.2, h.2.1, h.2.2]
  · rintro ⟨⟨h1, h2⟩, h3, h4⟩
    rcases le_total x 1 with h | h
    · exact Or.inl ⟨⟨h1, h⟩, h3, h4⟩
    · exact Or.inr ⟨⟨h, h2⟩, h3, h4⟩

theorem exS_region : gridRegion (2, 3) exSx exSy = Set.Icc (0 : ℝ) 4 ×ˢ Set.Icc (0 : ℝ) 4 := by
  have : gridRegion (2, 3) exSx exSy = quadRegion (gridCell (2, 3) exSx exSy 0) ∪ quadRegion (gridCell (2, 3) exSx exSy 1) := by
    unfold gridRegion
    rw [show cellCount (2, 3) = 2 from rfl]
    ext p
    simp only [Set.mem_iUnion, Finset.mem_range, Set.mem_union, exists_prop]
    constructor
    · rintro ⟨i, hi, h⟩
      rcases (show i = 0 ∨ i = 1 by omega) with rfl | rfl
      · exact Or.inl h
      · exact Or.inr h
    · rintro (h | h)
      · exact ⟨0, by omega, h⟩
      · exact ⟨1, by omega, h⟩
  rw [this, exS_cell 0 (by decide), exS_cell 1 (by decide), if_pos rfl, if_neg (by decide), ex_box (by decide) (by decide),
    ex_box (by decide) (by decide)]
  ext ⟨x, y⟩
  simp only [Set.mem_union, Set.mem_prod, Set.mem_Icc]
  push_cast
  constructor
  · rintro (h | h) <;> refine ⟨⟨?_, ?_⟩, ?_, ?_⟩ <;> linarith [h.1.1, h.1.2, h.2.1, h.2.2]
  · rintro ⟨⟨h1, h2⟩, h3, h4⟩
    rcases le_total y 1 with h | h
    · exact Or.inl ⟨⟨h1, h2⟩, h3, h⟩
    · exact Or.inr ⟨⟨h1, h2⟩, h, h4⟩

theorem ex_inter (a b c d a' b' c' d' : ℝ) : (Set.Icc a b ×ˢ Set.Icc c d) ∩ (Set.Icc a' b' ×ˢ Set.Icc c' d') =
    Set.Icc (max a a') (min b b') ×ˢ Set.Icc (max c c') (min d d') := by
  rw [Set.prod_inter_prod, Set.Icc_inter_Icc, Set.Icc_inter_Icc]

theorem exD_noOverlap : NoOverlap (3, 2) exDx exDy := by
  intro i hi j hj hij
  rw [exD_cell i hi, exD_cell j hj]
  split <;> split
  · omega
  · rw [ex_box (by decide) (by decide), ex_box (by decide) (by decide), ex_inter]
    rw [area_box (by norm_num) (by norm_num)]
    norm_num
  · rw [ex_box (by decide) (by decide), ex_box (by decide) (by decide), ex_inter]
    rw [area_box (by norm_num) (by norm_num)]
    norm_num
  · simp [cellCount] at hi hj; omega

theorem exS_noOverlap : NoOverlap (2, 3) exSx exSy := by
  intro i hi j hj hij
  rw [exS_cell i hi, exS_cell j hj]
  split <;> split
  · omega
  · rw [ex_box (by decide) (by decide), ex_box (by decide) (by decide), ex_inter]
    rw [area_box (by norm_num) (by norm_num)]
    norm_num
  · rw [ex_box (by decide) (by decide), ex_box (by decide) (by decide), ex_inter]
    rw [area_box (by norm_num) (by norm_num)]
    norm_num
  · simp [cellCount] at hi hj; omega

theorem ex_over : ∀ i < cellCount (3, 2), ∀ j < cellCount (2, 3),
    (interior (quadRegion (gridCell (3, 2) exDx exDy i) ∩ quadRegion (gridCell (2, 3) exSx exSy j))).Nonempty ∨
    (quadRegion (gridCell (3, 2) exDx exDy i) ∩ quadRegion (gridCell (2, 3) exSx exSy j)).Subsingleton := by
  intro i hi j hj
  left
  rw [exD_cell i hi, exS_cell j hj]
  split <;> split
  · rw [ex_box (by decide) (by decide), ex_box (by decide) (by decide), ex_inter, interior_prod_eq, interior_Icc, interior_Icc]
    exact ⟨(1/2, 1/2), by norm_num⟩
  · rw [ex_box (by decide) (by decide), ex_box (by decide) (by decide), ex_inter, interior_prod_eq, interior_Icc, interior_Icc]
    exact ⟨(1/2, 2), by norm_num⟩
  · rw [ex_box (by decide) (by decide), ex_box (by decide) (by decide), ex_inter, interior_prod_eq, interior_Icc, interior_Icc]
    exact ⟨(2, 1/2), by norm_num⟩
  · rw [ex_box (by decide) (by decide), ex_box (by decide) (by decide), ex_inter, interior_prod_eq, interior_Icc, interior_Icc]
    exact ⟨(2, 2), by norm_num⟩

/-- The weights can be computed, on a new object. -/
theorem ex_run : ∃ o o' : Interp ℝ, Conserve.new .lenient = .ok o ∧ o.weights = [] ∧
    setAndCompute refGels stdSort .keptBuffer o (3, 2) exDx exDy (2, 3) (0, 0) exSx exSy = .ok o' := by
  obtain ⟨o', h⟩ := C65_safe_partial refGels refGels_contract stdSort stdSort_ok (3, 2) (2, 3) (0, 0) exDx exDy exSx exSy
    (by decide) (by decide) (by decide) (by decide) (by decide) (by decide) ex_clean
    { src := none, dst := none, weights := [], it := none, it2 := none } ex_over (by decide)
  exact ⟨_, o', rfl, rfl, h⟩

/-- C56: the weight of the second row in the first column is 3/4. -/
example : ∃ o' : Interp ℝ, weightOf o'.weights 0 1 = 3/4 := by
  obtain ⟨o, o', -, h0, h⟩ := ex_run
  refine ⟨o', ?_⟩
  rw [C56_weight refGels refGels_contract stdSort stdSort_ok .keptBuffer (3, 2) (2, 3) (0, 0) exDx exDy exSx exSy
    (by decide) (by decide) (by decide) (by decide) (by decide) (by decide) ex_clean o o' h0 h 0 (by decide) 1 (by decide),
    overlapFraction, exD_cell 0 (by decide), exS_cell 1 (by decide), if_pos rfl, if_neg (by decide),
    ex_box (by decide) (by decide), ex_box (by decide) (by decide), ex_inter]
  rw [area_box (by norm_num) (by norm_num), area_box (by norm_num) (by norm_num)]
  norm_num

/-- C57: the weights of the first column sum to 1. -/
example : ∃ o' : Interp ℝ, ∑ j ∈ Finset.range 2, weightOf o'.weights 0 j = 1 := by
  obtain ⟨o, o', -, h0, h⟩ := ex_run
  refine ⟨o', C57_sum_one refGels refGels_contract stdSort stdSort_ok .keptBuffer (3, 2) (2, 3) (0, 0) exDx exDy exSx exSy
    (by decide) (by decide) (by decide) (by decide) (by decide) (by decide) ex_clean o o' h0 h 0 (by decide) ?_ exS_noOverlap⟩
  rw [exS_region, ← exD_region]
  exact Set.subset_biUnion_of_mem (u := fun i => quadRegion (gridCell (3, 2) exDx exDy i))
    (Finset.mem_range.mpr (show 0 < cellCount (3, 2) by decide))

/-- C58: the total of the values 5 and 7 in the rows is 5 * 4 + 7 * 12. -/
example : ∃ (o' : Interp ℝ) (d' : List ℝ), o'.apply [5, 7] [100, 200] = .ok d' ∧
    ∑ i ∈ Finset.range 2, area (quadRegion (gridCell (3, 2) exDx exDy i)) * d'.getD i 0 = 104 := by
  obtain ⟨o, o', -, h0, h⟩ := ex_run
  obtain ⟨d', e, -, ht⟩ := C58_conserved refGels refGels_contract stdSort stdSort_ok .keptBuffer (3, 2) (2, 3) (0, 0) exDx exDy
    exSx exSy (by decide) (by decide) (by decide) (by decide) (by decide) (by decide) ex_clean o o' h0 h [5, 7] [100, 200]
    (by decide) (by decide) exD_noOverlap exS_noOverlap (by decide) (by rw [exD_region, exS_region])
  refine ⟨o', d', e, ht.trans ?_⟩
  rw [show cellCount (2, 3) = 2 from rfl, Finset.sum_range_succ, Finset.sum_range_one, exS_cell 0 (by decide),
    exS_cell 1 (by decide), if_pos rfl, if_neg (by decide), ex_box (by decide) (by decide), ex_box (by decide) (by decide),
    area_box (by norm_num) (by norm_num), area_box (by norm_num) (by norm_num)]
  norm_num

end Sg.Props
