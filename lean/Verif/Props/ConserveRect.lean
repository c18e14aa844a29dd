import Mathlib.Analysis.Convex.Measure
import Verif.Proof.Lattice
import Verif.Props.ConserveState
import Verif.Props.ConserveTotals
import Verif.Props.ConserveInvariance
import Verif.Props.Grids
/-
Property C86: conservative regridding between rectangular (or sheared) grids over the same region.
-/
namespace Sg.Props
open Sg.LinearSolve Sg.Triangulate Sg.QuadIntersect Sg.Conserve Sg.Spec Sg.Plane MeasureTheory

theorem interior_of_area {S : Set P2} (hc : Convex ℝ S) (h : 0 < area S) : (interior S).Nonempty := by
  by_contra hcon
  rw [Set.not_nonempty_iff_eq_empty] at hcon
  have h1 : S ⊆ frontier S := by
    rw [frontier, hcon, Set.diff_empty]
    exact subset_closure
  have h2 : (volume : Measure P2) S = 0 := measure_mono_null h1 (hc.addHaar_frontier volume)
  rw [area, h2] at h
  simp at h

section lattice
variable {φ : AffineMap2} (hφ : LargeUnits φ) {ddims sdims : Nat × Nat} {X Y X' Y' : Nat → ℤ} {dx dy sx sy : List ℝ}
  (hd : LatticeGrid φ ddims X Y dx dy) (hs : LatticeGrid φ sdims X' Y' sx sy)
include hφ hd hs

theorem lattice_clean (i : Nat) (hi : i < cellCount ddims) (j : Nat) (hj : j < cellCount sdims) :
    CleanCells (gridCell ddims dx dy i) (gridCell sdims sx sy j) := by
  obtain ⟨ha, hb, -⟩ := cell_split ddims i hi
  obtain ⟨ha', hb', -⟩ := cell_split sdims j hj
  unfold gridCell
  rw [lattice_cell hd _ _ ha hb, lattice_cell hs _ _ ha' hb']
  exact cleanCells_lattice hφ (hd.incX _ ha).1 (hd.incX _ ha).2 (hd.incY _ hb).1 (hd.incY _ hb).2
    (hs.incX _ ha').1 (hs.incX _ ha').2 (hs.incY _ hb').1 (hs.incY _ hb').2

theorem lattice_inter (a b a' b' : Nat) (ha : a + 1 < ddims.1) (hb : b + 1 < ddims.2) (ha' : a' + 1 < sdims.1)
    (hb' : b' + 1 < sdims.2) :
    quadRegion (gridCellAt ddims dx dy a b) ∩ quadRegion (gridCellAt sdims sx sy a' b') =
      φ.app '' (Set.Icc (max (X a : ℝ) (X' a')) (min (X (a + 1) : ℝ) (X' (a' + 1))) ×ˢ
        Set.Icc (max (Y b : ℝ) (Y' b')) (min (Y (b + 1) : ℝ) (Y' (b' + 1)))) := by
  rw [lattice_region hd _ _ ha hb, lattice_region hs _ _ ha' hb', ← Set.image_inter (app_inj φ (largeUnits_ne hφ)), ex_inter]

theorem lattice_fraction (a b a' b' : Nat) (ha : a + 1 < ddims.1) (hb : b + 1 < ddims.2) (ha' : a' + 1 < sdims.1)
    (hb' : b' + 1 < sdims.2) :
    overlapFraction (gridCellAt ddims dx dy a b) (gridCellAt sdims sx sy a' b') =
      overlapLength (X a) (X (a + 1)) (X' a') (X' (a' + 1)) / (X (a + 1) - X a) *
        (overlapLength (Y b) (Y (b + 1)) (Y' b') (Y' (b' + 1)) / (Y (b + 1) - Y b)) := by
  have hdet : |φ.det| ≠ 0 := abs_ne_zero.mpr (largeUnits_ne hφ)
  have h1 : (0 : ℝ) < (X (a + 1) : ℝ) - X a := sub_pos.mpr (by exact_mod_cast (hd.incX a ha).1)
  have h2 : (0 : ℝ) < (Y (b + 1) : ℝ) - Y b := sub_pos.mpr (by exact_mod_cast (hd.incY b hb).1)
  rw [overlapFraction, lattice_inter hφ hd hs a b a' b' ha hb ha' hb', lattice_region hd _ _ ha hb, area_image, area_image,
    area_box', area_box', max_eq_right h1.le, max_eq_right h2.le, overlapLength, overlapLength]
  field_simp

omit hφ hd hs in
theorem interleaved_cases {n m : Nat} {X X' : Nat → ℤ} (hX : ∀ i, i + 1 < n → X i < X (i + 1) ∧ X (i + 1) - X i ≤ 700000)
    (hX' : ∀ i, i + 1 < m → X' i < X' (i + 1) ∧ X' (i + 1) - X' i ≤ 700000) (hl : Interleaved n X m X') (i j : Nat)
    (hi : i + 1 < n) (hj : j + 1 < m) :
    max (X i) (X' j) < min (X (i + 1)) (X' (j + 1)) ∨ min (X (i + 1)) (X' (j + 1)) < max (X i) (X' j) := by
  have h1 := (hX i hi).1
  have h2 := (hX' j hj).1
  have h3 : X (i + 1) ≠ X' j := by
    intro h
    rcases Nat.lt_or_ge (i + 1 + 1) n with h4 | h4
    · exact hl.apart (i + 1) (by omega) h4 j (by omega) h
    · have h5 := hl.last
      rw [show n - 1 = i + 1 by omega, h] at h5
      have := lines_mono hX' j (m - 1) (by omega) (by omega)
      omega
  have h4 : X i ≠ X' (j + 1) := by
    intro h
    rcases Nat.eq_zero_or_pos i with h5 | h5
    · subst h5
      have h6 := hl.first
      have := lines_mono hX' 0 (j + 1) (by omega) hj
      omega
    · exact hl.apart i h5 hi (j + 1) hj h
  omega

/-- Overlaps have an interior, or are empty. -/
theorem lattice_over (hx : Interleaved ddims.1 X sdims.1 X') (hy : Interleaved ddims.2 Y sdims.2 Y') (i : Nat)
    (hi : i < cellCount ddims) (j : Nat) (hj : j < cellCount sdims) :
    (interior (quadRegion (gridCell ddims dx dy i) ∩ quadRegion (gridCell sdims sx sy j))).Nonempty ∨
      (quadRegion (gridCell ddims dx dy i) ∩ quadRegion (gridCell sdims sx sy j)).Subsingleton := by
  obtain ⟨ha, hb, -⟩ := cell_split ddims i hi
  obtain ⟨ha', hb', -⟩ := cell_split sdims j hj
  have hcv : Convex ℝ (quadRegion (gridCell ddims dx dy i) ∩ quadRegion (gridCell sdims sx sy j)) :=
    (convex_convexHull ℝ _).inter (convex_convexHull ℝ _)
  have e : quadRegion (gridCell ddims dx dy i) ∩ quadRegion (gridCell sdims sx sy j) = _ :=
    lattice_inter hφ hd hs _ _ _ _ ha hb ha' hb'
  rcases interleaved_cases hd.incX hs.incX hx _ _ ha ha' with h1 | h1
  · rcases interleaved_cases hd.incY hs.incY hy _ _ hb hb' with h2 | h2
    · left
      apply interior_of_area hcv
      rw [e, area_image, area_box']
      have h1' : (0 : ℝ) < min (X (i / (ddims.2 - 1) + 1) : ℝ) (X' (j / (sdims.2 - 1) + 1)) -
          max (X (i / (ddims.2 - 1)) : ℝ) (X' (j / (sdims.2 - 1))) := sub_pos.mpr (by exact_mod_cast h1)
      have h2' : (0 : ℝ) < min (Y (i % (ddims.2 - 1) + 1) : ℝ) (Y' (j % (sdims.2 - 1) + 1)) -
          max (Y (i % (ddims.2 - 1)) : ℝ) (Y' (j % (sdims.2 - 1))) := sub_pos.mpr (by exact_mod_cast h2)
      rw [max_eq_right h1'.le, max_eq_right h2'.le]
      exact mul_pos (abs_pos.mpr (largeUnits_ne hφ)) (mul_pos h1' h2')
    · right
      have h2' : ¬ max (Y (i % (ddims.2 - 1)) : ℝ) (Y' (j % (sdims.2 - 1))) ≤
          min (Y (i % (ddims.2 - 1) + 1) : ℝ) (Y' (j % (sdims.2 - 1) + 1)) := not_le.mpr (by exact_mod_cast h2)
      rw [e, Set.Icc_eq_empty h2', Set.prod_empty, Set.image_empty]
      exact Set.subsingleton_empty
  · right
    have h1' : ¬ max (X (i / (ddims.2 - 1)) : ℝ) (X' (j / (sdims.2 - 1))) ≤
        min (X (i / (ddims.2 - 1) + 1) : ℝ) (X' (j / (sdims.2 - 1) + 1)) := not_le.mpr (by exact_mod_cast h1)
    rw [e, Set.Icc_eq_empty h1', Set.empty_prod, Set.image_empty]
    exact Set.subsingleton_empty

omit hφ hs in
theorem lattice_cells_pos : 0 < cellCount ddims := by
  have h0 := hd.two0
  have h1 := hd.two1
  exact Nat.mul_pos (by omega) (by omega)

variable (g : Gels ℝ) (hg : GelsContract g) (sort : List P2 → List P2) (hsort : ∀ l, IsStdSort l (sort l)) (mode : Mode)
  (per : Nat × Nat)
include hg hsort

/-- **C86** The weight of two cells is the product of the fractions of the width and of the height. -/
theorem C86_weight (o o' : Interp ℝ) (h0 : o.weights = [])
    (h : setAndCompute g sort mode o ddims dx dy sdims per sx sy = .ok o') (a b a' b' : Nat) (ha : a + 1 < ddims.1)
    (hb : b + 1 < ddims.2) (ha' : a' + 1 < sdims.1) (hb' : b' + 1 < sdims.2) :
    weightOf o'.weights (a * (ddims.2 - 1) + b) (a' * (sdims.2 - 1) + b') =
      overlapLength (X a) (X (a + 1)) (X' a') (X' (a' + 1)) / (X (a + 1) - X a) *
        (overlapLength (Y b) (Y (b + 1)) (Y' b') (Y' (b' + 1)) / (Y (b + 1) - Y b)) := by
  obtain ⟨c1, c2, c3⟩ := cell_join ddims a b ha hb
  obtain ⟨c1', c2', c3'⟩ := cell_join sdims a' b' ha' hb'
  have hd1 := hd.two0
  have hd2 := hd.two1
  have hs1 := hs.two0
  have hs2 := hs.two1
  rw [C56_weight g hg sort hsort mode ddims sdims per dx dy sx sy ⟨by omega, by omega⟩ ⟨by omega, by omega⟩ hd.lenX hd.lenY
    hs.lenX hs.lenY (lattice_clean hφ hd hs) o o' h0 h _ c1 _ c1']
  unfold gridCell
  rw [c2, c3, c2', c3']
  exact lattice_fraction hφ hd hs a b a' b' ha hb ha' hb'

/-- **C86** If no inner line of one grid is a line of the other then computing the weights is safe, with the triangulation
as it is when the erased elements are still readable. -/
theorem C86_safe_partial (o : Interp ℝ) (hx : Interleaved ddims.1 X sdims.1 X') (hy : Interleaved ddims.2 Y sdims.2 Y') :
    ∃ o', setAndCompute g sort .keptBuffer o ddims dx dy sdims per sx sy = .ok o' := by
  have hd1 := hd.two0
  have hd2 := hd.two1
  have hs1 := hs.two0
  have hs2 := hs.two1
  exact C65_safe_partial g hg sort hsort ddims sdims per dx dy sx sy ⟨by omega, by omega⟩ ⟨by omega, by omega⟩ hd.lenX hd.lenY
    hs.lenX hs.lenY (lattice_clean hφ hd hs) o (lattice_over hφ hd hs hx hy) (lattice_cells_pos hs)

/-- **C86** Grids over the same region: constants stay, totals are conserved. -/
theorem C86_apply (o o' : Interp ℝ) (h0 : o.weights = [])
    (h : setAndCompute g sort mode o ddims dx dy sdims per sx sy = .ok o')
    (hX : X 0 = X' 0 ∧ X (ddims.1 - 1) = X' (sdims.1 - 1)) (hY : Y 0 = Y' 0 ∧ Y (ddims.2 - 1) = Y' (sdims.2 - 1))
    (srcData dstData : List ℝ) (hlen : cellCount sdims ≤ srcData.length) (hlen' : cellCount ddims ≤ dstData.length) :
    ∃ d', o'.apply srcData dstData = .ok d' ∧ d'.length = dstData.length ∧
      (∀ c, (∀ j < cellCount sdims, srcData.getD j 0 = c) → ∀ i < cellCount ddims, d'.getD i 0 = c) ∧
      ∑ i ∈ Finset.range (cellCount ddims), area (quadRegion (gridCell ddims dx dy i)) * d'.getD i 0 =
        ∑ j ∈ Finset.range (cellCount sdims), area (quadRegion (gridCell sdims sx sy j)) * srcData.getD j 0 := by
  have hd1 := hd.two0
  have hd2 := hd.two1
  have hs1 := hs.two0
  have hs2 := hs.two1
  have hsame : gridRegion ddims dx dy = gridRegion sdims sx sy := by
    rw [lattice_gridRegion hd, lattice_gridRegion hs, hX.1, hX.2, hY.1, hY.2]
  have hno := lattice_noOverlap hφ hd
  have hno' := lattice_noOverlap hφ hs
  have hn := lattice_cells_pos hs
  obtain ⟨d', e, hl, ht⟩ := C58_conserved g hg sort hsort mode ddims sdims per dx dy sx sy ⟨by omega, by omega⟩
    ⟨by omega, by omega⟩ hd.lenX hd.lenY hs.lenX hs.lenY (lattice_clean hφ hd hs) o o' h0 h srcData dstData hlen hlen' hno hno'
    hn hsame
  refine ⟨d', e, hl, ?_, ht⟩
  intro c hc i hi
  obtain ⟨d'', e', -, hv⟩ := C57_constant g hg sort hsort mode ddims sdims per dx dy sx sy ⟨by omega, by omega⟩
    ⟨by omega, by omega⟩ hd.lenX hd.lenY hs.lenX hs.lenY (lattice_clean hφ hd hs) o o' h0 h srcData dstData hlen hlen' c hc hno' hn
  rw [e] at e'
  cases e'
  refine hv i hi ?_
  rw [← hsame]
  exact Set.subset_biUnion_of_mem (u := fun i => quadRegion (gridCell ddims dx dy i)) (Finset.mem_range.mpr hi)

end lattice

/-! ### Grids made by `createRectangularGrid` -/

open Sg.Grids

/-- Steps in x and y. -/
def rectMap (hx hy : ℝ) (lo : ℝ × ℝ) : AffineMap2 := ⟨hx, 0, 0, hy, lo.1, lo.2⟩

theorem rectMap_large (hx hy : ℝ) (lo : ℝ × ℝ) (h1 : (1 / 1000000 : ℝ) < hx) (h2 : (1 / 1000000 : ℝ) < hy) :
    LargeUnits (rectMap hx hy lo) := by
  have key : ∀ (h : ℝ) (u : ℤ), (1 / 1000000 : ℝ) < h → u ≠ 0 → (1 / 1000000000000 : ℝ) < (h * u) ^ 2 := by
    intro h u hh hu
    have h3 : (1 : ℝ) ≤ (u : ℝ) ^ 2 := by
      have : (0 : ℤ) < u ^ 2 := by positivity
      exact_mod_cast this
    have h4 : (1 / 1000000000000 : ℝ) < h ^ 2 := by nlinarith
    rw [mul_pow]
    nlinarith
  constructor
  · simp only [rectMap, AffineMap2.det]
    rw [mul_zero, sub_zero, abs_of_pos (by nlinarith)]
    nlinarith
  · intro u v huv
    simp only [rectMap]
    rw [zero_mul, add_zero, zero_mul, zero_add]
    rcases huv with hu | hv
    · linarith [key hx u h1 hu, sq_nonneg (hy * v)]
    · linarith [key hy v h2 hv, sq_nonneg (hx * u)]

/-- `n` cells of `m` units. -/
def steps (m : Nat) (i : Nat) : ℤ := i * m

theorem steps_inc (m : Nat) (hm : 0 < m) (hb : m ≤ 700000) (i : Nat) : steps m i < steps m (i + 1) ∧ steps m (i + 1) - steps m i ≤ 700000 := by
  have h : steps m (i + 1) = steps m i + m := by simp only [steps]; push_cast; ring
  rw [h]
  omega

theorem steps_interleaved (n m : Nat) (hc : Nat.Coprime n m) : Interleaved (n + 1) (steps m) (m + 1) (steps n) := by
  refine ⟨by simp [steps], by simp [steps, mul_comm], ?_⟩
  intro i hi hin j hj h
  simp only [steps] at h
  have h' : i * m = j * n := by exact_mod_cast h
  have h1 : n ∣ i * m := ⟨j, by rw [h', Nat.mul_comm]⟩
  have h2 := Nat.le_of_dvd hi (hc.dvd_of_dvd_mul_right h1)
  omega

theorem overlapLength_scale (s a b a' b' : ℝ) (hs : 0 < s) :
    overlapLength (s * a) (s * b) (s * a') (s * b') = s * overlapLength a b a' b' := by
  unfold overlapLength
  rw [← mul_min_of_nonneg _ _ hs.le, ← mul_max_of_nonneg _ _ hs.le, ← mul_sub, mul_max_of_nonneg _ _ hs.le, mul_zero]

theorem steps_fraction (n m : Nat) (hn : 0 < n) (hm : 0 < m) (a a' : Nat) :
    overlapLength (steps m a) (steps m (a + 1)) (steps n a') (steps n (a' + 1)) / (steps m (a + 1) - steps m a) =
      n * overlapLength (a / n) ((a + 1) / n) (a' / m) ((a' + 1) / m) := by
  have hn' : (0 : ℝ) < n := by exact_mod_cast hn
  have hm' : (0 : ℝ) < m := by exact_mod_cast hm
  have e := overlapLength_scale (n * m) (a / n) ((a + 1) / n) (a' / m) ((a' + 1) / m) (mul_pos hn' hm')
  have e1 : (n * m : ℝ) * (a / n) = (steps m a : ℝ) := by simp only [steps]; push_cast; field_simp
  have e2 : (n * m : ℝ) * ((a + 1) / n) = (steps m (a + 1) : ℝ) := by simp only [steps]; push_cast; field_simp
  have e3 : (n * m : ℝ) * (a' / m) = (steps n a' : ℝ) := by simp only [steps]; push_cast; field_simp
  have e4 : (n * m : ℝ) * ((a' + 1) / m) = (steps n (a' + 1) : ℝ) := by simp only [steps]; push_cast; field_simp
  rw [e1, e2, e3, e4] at e
  rw [e]
  have : (steps m (a + 1) : ℝ) - steps m a = m := by simp only [steps]; push_cast; ring
  rw [this]
  field_simp

theorem rect_lattice (n0 n1 m0 m1 : Nat) (hn0 : 0 < n0) (hn1 : 0 < n1) (hm0 : 0 < m0) (hm1 : 0 < m1)
    (bm0 : m0 ≤ 700000) (bm1 : m1 ≤ 700000) (lo hi : ℝ × ℝ) (c r : List ℝ × List ℝ)
    (hc0 : (n0 + 1) * (n1 + 1) ≤ c.1.length) (hc1 : (n0 + 1) * (n1 + 1) ≤ c.2.length)
    (h : createRectangularGrid (n0 + 1) (n1 + 1) lo hi c = .ok r) :
    LatticeGrid (rectMap ((hi.1 - lo.1) / (n0 * m0)) ((hi.2 - lo.2) / (n1 * m1)) lo) (n0 + 1, n1 + 1) (steps m0) (steps m1)
      r.1 r.2 := by
  obtain ⟨r', h', hv, hrest⟩ := C24_rectangular (n0 + 1) (n1 + 1) (by omega) (by omega) lo hi c hc0 hc1
  rw [h] at h'
  cases h'
  have hlen : ∀ {l l' : List ℝ} {N : Nat}, N ≤ l'.length → (∀ k, N ≤ k → l[k]? = l'[k]?) → N ≤ l.length ∨ N = l'.length := by
    intro l l' N h1 h2
    rcases Nat.eq_or_lt_of_le h1 with h3 | h3
    · exact Or.inr h3
    · left
      have := h2 N le_rfl
      rw [List.getElem?_eq_getElem h3] at this
      exact (List.getElem?_eq_some_iff.mp this).1.le
  have hlast := hv n0 n1 (by omega) (by omega)
  have hidx : n0 * (n1 + 1) + n1 + 1 = (n0 + 1) * (n1 + 1) := by ring
  refine ⟨by show 2 ≤ n0 + 1; omega, by show 2 ≤ n1 + 1; omega, ?_, ?_, fun i _ => steps_inc m0 hm0 bm0 i, fun j _ => steps_inc m1 hm1 bm1 j, ?_⟩
  · have := (List.getElem?_eq_some_iff.mp hlast.1).1
    show (n0 + 1) * (n1 + 1) ≤ _
    omega
  · have := (List.getElem?_eq_some_iff.mp hlast.2).1
    show (n0 + 1) * (n1 + 1) ≤ _
    omega
  · intro i hi' j hj'
    obtain ⟨v1, v2⟩ := hv i j hi' hj'
    have a0 : (n0 : ℝ) ≠ 0 := by exact_mod_cast hn0.ne'
    have a1 : (n1 : ℝ) ≠ 0 := by exact_mod_cast hn1.ne'
    have b0 : (m0 : ℝ) ≠ 0 := by exact_mod_cast hm0.ne'
    have b1 : (m1 : ℝ) ≠ 0 := by exact_mod_cast hm1.ne'
    unfold gridNode
    simp only [List.getD_eq_getElem?_getD, v1, v2, Option.getD_some, AffineMap2.app, rectMap, steps]
    refine Prod.ext ?_ ?_
    · push_cast
      simp only [add_sub_cancel_right]
      field_simp
      ring
    · push_cast
      simp only [add_sub_cancel_right]
      field_simp
      ring

/-- **C86** Regridding between two grids made by `createRectangularGrid` over the same rectangle, `n0 × n1` and `m0 × m1`
cells, the numbers of cells along each axis having no common factor: the weights are computed without undefined behaviour;
the weight of two cells is the product of the fractions along the axes; a constant field stays constant; the mean value is
kept. -/
theorem C86_rectangular_partial (g : Gels ℝ) (hg : GelsContract g) (sort : List P2 → List P2)
    (hsort : ∀ l, IsStdSort l (sort l)) (per : Nat × Nat) (n0 n1 m0 m1 : Nat)
    (hn0 : 0 < n0) (hn1 : 0 < n1) (hm0 : 0 < m0) (hm1 : 0 < m1)
    (bn0 : n0 ≤ 700000) (bn1 : n1 ≤ 700000) (bm0 : m0 ≤ 700000) (bm1 : m1 ≤ 700000)
    (c0 : Nat.Coprime n0 m0) (c1 : Nat.Coprime n1 m1) (lo hi : ℝ × ℝ)
    (u0 : (1 / 1000000 : ℝ) < (hi.1 - lo.1) / (n0 * m0)) (u1 : (1 / 1000000 : ℝ) < (hi.2 - lo.2) / (n1 * m1))
    (cd cs : List ℝ × List ℝ) (hd0 : (n0 + 1) * (n1 + 1) ≤ cd.1.length) (hd1 : (n0 + 1) * (n1 + 1) ≤ cd.2.length)
    (hs0 : (m0 + 1) * (m1 + 1) ≤ cs.1.length) (hs1 : (m0 + 1) * (m1 + 1) ≤ cs.2.length) (o : Interp ℝ) (ho : o.weights = []) :
    ∃ d s o', createRectangularGrid (n0 + 1) (n1 + 1) lo hi cd = .ok d ∧ createRectangularGrid (m0 + 1) (m1 + 1) lo hi cs = .ok s ∧
      setAndCompute g sort .keptBuffer o (n0 + 1, n1 + 1) d.1 d.2 (m0 + 1, m1 + 1) per s.1 s.2 = .ok o' ∧
      (∀ a < n0, ∀ b < n1, ∀ a' < m0, ∀ b' < m1, weightOf o'.weights (a * n1 + b) (a' * m1 + b') =
        n0 * overlapLength (a / n0) ((a + 1) / n0) (a' / m0) ((a' + 1) / m0) *
          (n1 * overlapLength (b / n1) ((b + 1) / n1) (b' / m1) ((b' + 1) / m1))) ∧
      ∀ srcData dstData : List ℝ, m0 * m1 ≤ srcData.length → n0 * n1 ≤ dstData.length →
        ∃ d', o'.apply srcData dstData = .ok d' ∧ d'.length = dstData.length ∧
          (∀ c, (∀ j < m0 * m1, srcData.getD j 0 = c) → ∀ i < n0 * n1, d'.getD i 0 = c) ∧
          (∑ i ∈ Finset.range (n0 * n1), d'.getD i 0) / (n0 * n1) = (∑ j ∈ Finset.range (m0 * m1), srcData.getD j 0) / (m0 * m1) := by
  obtain ⟨d, ed, -⟩ := C24_rectangular (n0 + 1) (n1 + 1) (by omega) (by omega) lo hi cd hd0 hd1
  obtain ⟨s, es, -⟩ := C24_rectangular (m0 + 1) (m1 + 1) (by omega) (by omega) lo hi cs hs0 hs1
  have hφ := rectMap_large _ _ lo u0 u1
  have hd := rect_lattice n0 n1 m0 m1 hn0 hn1 hm0 hm1 bm0 bm1 lo hi cd d hd0 hd1 ed
  have hs := rect_lattice m0 m1 n0 n1 hm0 hm1 hn0 hn1 bn0 bn1 lo hi cs s hs0 hs1 es
  rw [mul_comm (m0 : ℝ), mul_comm (m1 : ℝ)] at hs
  obtain ⟨o', h⟩ := C86_safe_partial hφ hd hs g hg sort hsort per o (steps_interleaved n0 m0 c0) (steps_interleaved n1 m1 c1)
  refine ⟨d, s, o', ed, es, h, ?_, ?_⟩
  · intro a ha b hb a' ha' b' hb'
    have := C86_weight hφ hd hs g hg sort hsort .keptBuffer per o o' ho h a b a' b' (by show a + 1 < n0 + 1; omega)
      (by show b + 1 < n1 + 1; omega) (by show a' + 1 < m0 + 1; omega) (by show b' + 1 < m1 + 1; omega)
    rw [steps_fraction n0 m0 hn0 hm0, steps_fraction n1 m1 hn1 hm1] at this
    exact this
  · intro srcData dstData hl hl'
    have hcd : cellCount (n0 + 1, n1 + 1) = n0 * n1 := rfl
    have hcs : cellCount (m0 + 1, m1 + 1) = m0 * m1 := rfl
    obtain ⟨d', e, hlen, hconst, htot⟩ := C86_apply hφ hd hs g hg sort hsort .keptBuffer per o o' ho h
      ⟨(steps_interleaved n0 m0 c0).first, (steps_interleaved n0 m0 c0).last⟩
      ⟨(steps_interleaved n1 m1 c1).first, (steps_interleaved n1 m1 c1).last⟩ srcData dstData hl hl'
    refine ⟨d', e, hlen, hconst, ?_⟩
    rw [hcd, hcs] at htot
    have area_d : ∀ i ∈ Finset.range (n0 * n1), area (quadRegion (gridCell (n0 + 1, n1 + 1) d.1 d.2 i)) * d'.getD i 0 =
        |(rectMap ((hi.1 - lo.1) / (n0 * m0)) ((hi.2 - lo.2) / (n1 * m1)) lo).det| * (m0 * m1) * d'.getD i 0 := by
      intro i hi'
      obtain ⟨ha, hb, -⟩ := cell_split (n0 + 1, n1 + 1) i (Finset.mem_range.mp hi')
      unfold gridCell
      rw [lattice_region hd _ _ ha hb, area_image, area_box']
      have e1 : ∀ m k : Nat, max 0 ((steps m (k + 1) : ℝ) - steps m k) = m := by
        intro m k
        rw [show (steps m (k + 1) : ℝ) - steps m k = m by simp only [steps]; push_cast; ring]
        exact max_eq_right (Nat.cast_nonneg m)
      rw [e1, e1]
    have area_s : ∀ i ∈ Finset.range (m0 * m1), area (quadRegion (gridCell (m0 + 1, m1 + 1) s.1 s.2 i)) * srcData.getD i 0 =
        |(rectMap ((hi.1 - lo.1) / (n0 * m0)) ((hi.2 - lo.2) / (n1 * m1)) lo).det| * (n0 * n1) * srcData.getD i 0 := by
      intro i hi'
      obtain ⟨ha, hb, -⟩ := cell_split (m0 + 1, m1 + 1) i (Finset.mem_range.mp hi')
      unfold gridCell
      rw [lattice_region hs _ _ ha hb, area_image, area_box']
      have e1 : ∀ m k : Nat, max 0 ((steps m (k + 1) : ℝ) - steps m k) = m := by
        intro m k
        rw [show (steps m (k + 1) : ℝ) - steps m k = m by simp only [steps]; push_cast; ring]
        exact max_eq_right (Nat.cast_nonneg m)
      rw [e1, e1]
    rw [Finset.sum_congr rfl area_d, Finset.sum_congr rfl area_s, ← Finset.mul_sum, ← Finset.mul_sum, mul_assoc |_|, mul_assoc |_|] at htot
    have hne := abs_ne_zero.mpr (largeUnits_ne hφ)
    have htot' := mul_left_cancel₀ hne htot
    have a0 : (n0 : ℝ) ≠ 0 := by exact_mod_cast hn0.ne'
    have a1 : (n1 : ℝ) ≠ 0 := by exact_mod_cast hn1.ne'
    have b0 : (m0 : ℝ) ≠ 0 := by exact_mod_cast hm0.ne'
    have b1 : (m1 : ℝ) ≠ 0 := by exact_mod_cast hm1.ne'
    rw [div_eq_div_iff (mul_ne_zero a0 a1) (mul_ne_zero b0 b1)]
    linarith

/-- The hypotheses of `C86_rectangular_partial` can be met: 180 × 90 cells to 7 × 11 cells of the sphere in degrees. -/
example : ∃ (d s : List ℝ × List ℝ) (o o' : Interp ℝ), createRectangularGrid 181 91 (0, -90) (360, 90) (List.replicate 16471 0, List.replicate 16471 0) = .ok d ∧
    createRectangularGrid 8 12 (0, -90) (360, 90) (List.replicate 96 0, List.replicate 96 0) = .ok s ∧
    setAndCompute refGels Sg.Witness.stdSort .keptBuffer o (181, 91) d.1 d.2 (8, 12) (0, 0) s.1 s.2 = .ok o' ∧
    weightOf o'.weights 0 0 = 1 := by
  obtain ⟨d, s, o', h1, h2, h3, h4, -⟩ := C86_rectangular_partial refGels refGels_contract Sg.Witness.stdSort Sg.Witness.stdSort_ok (0, 0) 180 90 7 11
    (by norm_num) (by norm_num) (by norm_num) (by norm_num) (by norm_num) (by norm_num) (by norm_num) (by norm_num) (by decide) (by decide)
    (0, -90) (360, 90) (by norm_num) (by norm_num) (List.replicate 16471 0, List.replicate 16471 0)
    (List.replicate 96 0, List.replicate 96 0) (by rw [List.length_replicate]) (by rw [List.length_replicate])
    (by rw [List.length_replicate]) (by rw [List.length_replicate])
    { src := none, dst := none, weights := [], it := none, it2 := none } rfl
  refine ⟨d, s, _, o', h1, h2, h3, ?_⟩
  have := h4 0 (by norm_num) 0 (by norm_num) 0 (by norm_num) 0 (by norm_num)
  norm_num [overlapLength] at this
  rw [this]

open Sg.Witness

/-- C86 is false without the condition on the lines: two by one and two by three cells over the unit square.  The middle
line is a line of both grids, and an edge of the source inside an edge of the destination has the triangulation read
past the end of the points. -/
theorem C86_refuted : ∃ (g : Gels ℚ) (sort : List (Pt ℚ) → List (Pt ℚ)) (o : Interp ℚ) (d s : List ℚ × List ℚ),
    GelsContract g ∧ (∀ l, IsStdSort l (sort l)) ∧ Conserve.new .lenient = .ok o ∧
    createRectangularGrid 3 2 (0, 0) (1, 1) ([0, 0, 0, 0, 0, 0], [0, 0, 0, 0, 0, 0]) = .ok d ∧
    createRectangularGrid 3 4 (0, 0) (1, 1) ([0, 0, 0, 0, 0, 0, 0, 0, 0, 0, 0, 0], [0, 0, 0, 0, 0, 0, 0, 0, 0, 0, 0, 0]) = .ok s ∧
    setAndCompute g sort .keptBuffer o (3, 2) d.1 d.2 (3, 4) (0, 0) s.1 s.2 = .error .outOfBounds ∧
    setAndCompute g sort .standard o (3, 2) d.1 d.2 (3, 4) (0, 0) s.1 s.2 = .error .outOfBounds := by
  refine ⟨cramerGels, stdSort, { src := none, dst := none, weights := [], it := none, it2 := none },
    ([0, 0, 1/2, 1/2, 1, 1], [0, 1, 0, 1, 0, 1]),
    ([0, 0, 0, 0, 1/2, 1/2, 1/2, 1/2, 1, 1, 1, 1], [0, 1/3, 2/3, 1, 0, 1/3, 2/3, 1, 0, 1/3, 2/3, 1]),
    cramerGels_contract, stdSort_ok, rfl, ?_, ?_, ?_, ?_⟩ <;> decide +kernel

/-- With the triangulation of the standard (erased elements are not readable) not even two single cells over the same
square can be regridded. -/
theorem C86_standard_refuted : ∃ (g : Gels ℚ) (sort : List (Pt ℚ) → List (Pt ℚ)) (o : Interp ℚ) (d : List ℚ × List ℚ),
    GelsContract g ∧ (∀ l, IsStdSort l (sort l)) ∧ Conserve.new .lenient = .ok o ∧
    createRectangularGrid 2 2 (0, 0) (1, 1) ([0, 0, 0, 0], [0, 0, 0, 0]) = .ok d ∧
    setAndCompute g sort .standard o (2, 2) d.1 d.2 (2, 2) (0, 0) d.1 d.2 = .error .outOfBounds := by
  refine ⟨cramerGels, stdSort, { src := none, dst := none, weights := [], it := none, it2 := none },
    ([0, 0, 1, 1], [0, 1, 0, 1]), cramerGels_contract, stdSort_ok, rfl, ?_, ?_⟩ <;> decide +kernel

end Sg.Props
