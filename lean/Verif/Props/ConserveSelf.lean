import Verif.Proof.ConserveSelf
import Verif.Props.ConserveRect
import Verif.Props.ConserveRange
/-
Property C132: conservative regridding of a grid to itself.
-/
namespace Sg.Props
open Sg.LinearSolve Sg.Triangulate Sg.QuadIntersect Sg.Conserve Sg.Spec Sg.Plane MeasureTheory

section self
variable (g : Gels ℝ) (hg : GelsContract g) (sort : List P2 → List P2) (hsort : ∀ l, IsStdSort l (sort l)) (mode : Mode)
  (dims per : Nat × Nat) (x y : List ℝ) (hd : 1 ≤ dims.1 ∧ 1 ≤ dims.2) (hx : dims.1 * dims.2 ≤ x.length) (hy : dims.1 * dims.2 ≤ y.length)
  (hc : ∀ i < cellCount dims, ∀ j < cellCount dims, CleanCells (gridCell dims x y i) (gridCell dims x y j))
include hg hsort hd hx hy hc

omit hg hsort hd hx hy in
theorem self_fraction (hno : NoOverlap dims x y) (i : Nat) (hi : i < cellCount dims) (j : Nat) (hj : j < cellCount dims) :
    overlapFraction (gridCell dims x y i) (gridCell dims x y j) = if i = j then 1 else 0 := by
  unfold overlapFraction
  by_cases h : i = j
  · subst h
    rw [if_pos rfl, Set.inter_self, div_self (area_pos (hc i hi i hi).dst).ne']
  · rw [if_neg h, hno i hi j hj h, zero_div]

/-- **C132** If the weights from a grid to itself are computed, a cell has the weight 1 for itself and 0 for every other cell. -/
theorem C132_weight (hno : NoOverlap dims x y) (o o' : Interp ℝ) (h0 : o.weights = [])
    (h : setAndCompute g sort mode o dims x y dims per x y = .ok o') (i : Nat) (hi : i < cellCount dims) (j : Nat) (hj : j < cellCount dims) :
    weightOf o'.weights i j = if i = j then 1 else 0 := by
  rw [C56_weight g hg sort hsort mode dims dims per x y x y hd hd hx hy hx hy hc o o' h0 h i hi j hj]
  exact self_fraction dims x y hc hno i hi j hj

/-- **C132** So `apply` copies the values of the cells, whatever was in the result array. -/
theorem C132_copy (hno : NoOverlap dims x y) (o o' : Interp ℝ) (h0 : o.weights = [])
    (h : setAndCompute g sort mode o dims x y dims per x y = .ok o') (srcData dstData : List ℝ) (hs : cellCount dims ≤ srcData.length)
    (hl : cellCount dims ≤ dstData.length) :
    ∃ d', o'.apply srcData dstData = .ok d' ∧ d'.length = dstData.length ∧ ∀ i < cellCount dims, d'.getD i 0 = srcData.getD i 0 := by
  rcases Nat.eq_zero_or_pos (cellCount dims) with hn | hn
  · -- no cells, no weights
    have hw : o'.weights = [] := by
      obtain ⟨dst, src, -, -, h1, h2, c1, c2, q1, q2, e⟩ := setAndCompute_eq g sort mode o dims x y dims per x y hd hd hx hy hx hy
      rw [e] at h
      simp only [Interp.computeWeights, c1, hn, forN, forFrom, bind, Except.bind, pure, Except.pure] at h
      rw [← Except.ok.inj h]
      exact h0
    refine ⟨dstData, ?_, rfl, fun i hi => by omega⟩
    unfold Interp.apply
    rw [hw]
    rfl
  have hT := setAndCompute_spec g hg sort hsort mode dims dims per x y x y hd hd hx hy hx hy hc hn o o' h0 h
  obtain ⟨d', e, hl', hval⟩ := apply_value hT hn (fun i hi => (hc i hi 0 hn).dst) srcData dstData hs hl
  refine ⟨d', e, hl', fun i hi => ?_⟩
  rw [hval i hi]
  · rw [Finset.sum_congr rfl fun j hj => by rw [self_fraction dims x y hc hno i hi j (Finset.mem_range.1 hj)]]
    simp only [ite_mul, one_mul, zero_mul]
    rw [Finset.sum_ite_eq, if_pos (Finset.mem_range.2 hi)]
  · intro hz
    exfalso
    have := hz i hi
    rw [Set.inter_self] at this
    exact (area_pos (hc i hi 0 hn).dst).ne' this

/-- **C132** With proper corners, cells that fit together, a sort that keeps ties of short lists in order (the point sets of two neighbours
are ties) and a vector that keeps its buffer the weights are computed without undefined behaviour. -/
theorem C132_safe_partial (hst : StableShort sort) (hstrict : ∀ i < cellCount dims, StrictQuad (gridCell dims x y i))
    (hconf : Conforming dims x y) (hn : 0 < cellCount dims) (o : Interp ℝ) :
    ∃ o', setAndCompute g sort .keptBuffer o dims x y dims per x y = .ok o' := by
  obtain ⟨dst, src, -, -, h1, h2, c1, c2, q1, q2, e⟩ := setAndCompute_eq g sort .keptBuffer o dims x y dims per x y hd hd hx hy hx hy
  rw [e]
  have hc' : ∀ i < dst.numCells, ∀ j < src.numCells, CleanCells (dst.cellQuad (ptAt x y) i) (src.cellQuad (ptAt x y) j) := by
    rw [c1, c2, q1, q2]; exact hc
  rw [computeWeights_scratch (keepsSizes hg) h1 h2 (edgesBy hg fun i hi j hj => (hc' i hi j hj).clear) sort .keptBuffer
    { o with dst := some dst, src := some src } rfl rfl]
  obtain ⟨t, ht⟩ := scratchTable_pairs hg h1 h2 hsort hc' (by
    rw [c1, c2, q1, q2]
    intro i hi j hj
    by_cases hij : i = j
    · subst hij
      refine pair_safe hg hsort (hc i hi i hi) (Or.inl ?_)
      rw [Set.inter_self]
      exact interior_of_area (convex_convexHull ℝ _) (area_pos (hc i hi i hi).dst)
    · rcases hconf i hi j hj hij with h | h
      · exact pair_shared hg hsort hst (hc i hi j hj) (hstrict i hi) (hstrict j hj) h
      · exact pair_safe hg hsort (hc i hi j hj) (Or.inr h)) (by rw [c2]; exact hn)
  rw [ht]
  exact ⟨_, rfl⟩

end self

/-! ### Affine images of product grids -/

section lattice
variable {φ : AffineMap2} {dims : Nat × Nat} {X Y : Nat → ℤ} {x y : List ℝ} (h : LatticeGrid φ dims X Y x y)
include h

theorem lattice_strict (hφ : LargeUnits φ) (i : Nat) (hi : i < cellCount dims) : StrictQuad (gridCell dims x y i) := by
  obtain ⟨ha, hb, -⟩ := cell_split dims i hi
  have e1 := (h.incX _ ha).1
  have e2 := (h.incY _ hb).1
  unfold gridCell
  set a := i / (dims.2 - 1)
  set b := i % (dims.2 - 1)
  have n0 := h.node a (by omega) b (by omega)
  have n1 := h.node (a + 1) (by omega) b (by omega)
  have n2 := h.node (a + 1) (by omega) (b + 1) (by omega)
  have n3 := h.node a (by omega) (b + 1) (by omega)
  have hX : (X (a + 1) : ℝ) - X a ≠ 0 := by
    have : (X a : ℝ) < X (a + 1) := by exact_mod_cast e1
    linarith
  have hY : (Y (b + 1) : ℝ) - Y b ≠ 0 := by
    have : (Y b : ℝ) < Y (b + 1) := by exact_mod_cast e2
    linarith
  have hne := mul_ne_zero (largeUnits_ne hφ) (mul_ne_zero hX hY)
  intro k
  fin_cases k
  · show area2 (gridNode dims x y a b) (gridNode dims x y (a + 1) b) (gridNode dims x y (a + 1) (b + 1)) ≠ 0
    rw [n0, n1, n2, area2_image]
    convert hne using 2
    simp only [area2]; ring
  · show area2 (gridNode dims x y (a + 1) b) (gridNode dims x y (a + 1) (b + 1)) (gridNode dims x y a (b + 1)) ≠ 0
    rw [n3, n1, n2, area2_image]
    convert hne using 2
    simp only [area2]; ring
  · show area2 (gridNode dims x y (a + 1) (b + 1)) (gridNode dims x y a (b + 1)) (gridNode dims x y a b) ≠ 0
    rw [n3, n0, n2, area2_image]
    convert hne using 2
    simp only [area2]; ring
  · show area2 (gridNode dims x y a (b + 1)) (gridNode dims x y a b) (gridNode dims x y (a + 1) b) ≠ 0
    rw [n3, n0, n1, area2_image]
    convert hne using 2
    simp only [area2]; ring

omit h in
theorem app_segment_y (φ : AffineMap2) (u c d : ℝ) (hcd : c ≤ d) : φ.app '' (Set.Icc u u ×ˢ Set.Icc c d) ⊆ segment ℝ (φ.app (u, c)) (φ.app (u, d)) := by
  rintro _ ⟨⟨p, q⟩, ⟨hp, hq⟩, rfl⟩
  have hp : p = u := le_antisymm hp.2 hp.1
  subst hp
  rw [← segment_eq_Icc hcd] at hq
  obtain ⟨v, w, hv, hw, hvw, rfl⟩ := hq
  refine ⟨v, w, hv, hw, hvw, ?_⟩
  have : v = 1 - w := by linarith
  subst this
  refine Prod.ext ?_ ?_ <;> simp only [AffineMap2.app, Prod.fst_add, Prod.snd_add, Prod.smul_fst, Prod.smul_snd, smul_eq_mul] <;> ring

omit h in
theorem app_segment_x (φ : AffineMap2) (u c d : ℝ) (hcd : c ≤ d) : φ.app '' (Set.Icc c d ×ˢ Set.Icc u u) ⊆ segment ℝ (φ.app (c, u)) (φ.app (d, u)) := by
  rintro _ ⟨⟨q, p⟩, ⟨hq, hp⟩, rfl⟩
  have hp : p = u := le_antisymm hp.2 hp.1
  subst hp
  rw [← segment_eq_Icc hcd] at hq
  obtain ⟨v, w, hv, hw, hvw, rfl⟩ := hq
  refine ⟨v, w, hv, hw, hvw, ?_⟩
  have : v = 1 - w := by linarith
  subst this
  refine Prod.ext ?_ ?_ <;> simp only [AffineMap2.app, Prod.fst_add, Prod.snd_add, Prod.smul_fst, Prod.smul_snd, smul_eq_mul] <;> ring

omit h in
/-- Two intervals of a division of a line: the same, neighbours, or without a common point. -/
theorem intervals {n : Nat} {X : Nat → ℤ} (hX : ∀ i, i + 1 < n → X i < X (i + 1) ∧ X (i + 1) - X i ≤ 700000) (a a' : Nat) (ha : a + 1 < n)
    (ha' : a' + 1 < n) : a = a' ∨ (a' = a + 1 ∧ max (X a : ℝ) (X a') = X (a + 1) ∧ min (X (a + 1) : ℝ) (X (a' + 1)) = X (a + 1)) ∨
      (a = a' + 1 ∧ max (X a : ℝ) (X a') = X a ∧ min (X (a + 1) : ℝ) (X (a' + 1)) = X a) ∨
      min (X (a + 1) : ℝ) (X (a' + 1)) < max (X a : ℝ) (X a') := by
  have mono : ∀ i j, i ≤ j → j < n → (X i : ℝ) ≤ X j := by
    intro i j hij hj
    rcases Nat.eq_or_lt_of_le hij with rfl | hlt
    · exact le_rfl
    · exact_mod_cast (lines_mono hX i j hlt hj).le
  have lt : ∀ i j, i < j → j < n → (X i : ℝ) < X j := fun i j hij hj => by exact_mod_cast lines_mono hX i j hij hj
  rcases Nat.lt_trichotomy a a' with hlt | heq | hlt
  · by_cases h1 : a' = a + 1
    · right; left
      subst h1
      exact ⟨rfl, max_eq_right (mono _ _ (by omega) (by omega)), min_eq_left (mono _ _ (by omega) (by omega))⟩
    · right; right; right
      exact lt_of_le_of_lt (min_le_left _ _) (lt_of_lt_of_le (lt (a + 1) a' (by omega) (by omega)) (le_max_right _ _))
  · exact Or.inl heq
  · by_cases h1 : a = a' + 1
    · right; right; left
      subst h1
      exact ⟨rfl, max_eq_left (mono _ _ (by omega) (by omega)), min_eq_right (mono _ _ (by omega) (by omega))⟩
    · right; right; right
      exact lt_of_le_of_lt (min_le_right _ _) (lt_of_lt_of_le (lt (a' + 1) a (by omega) (by omega)) (le_max_left _ _))

theorem lattice_conforming (hφ : LargeUnits φ) : Conforming dims x y := by
  intro i hi j hj hij
  obtain ⟨ha, hb, ei⟩ := cell_split dims i hi
  obtain ⟨ha', hb', ej⟩ := cell_split dims j hj
  have e := lattice_inter hφ h h _ _ _ _ ha hb ha' hb'
  unfold gridCell
  rw [e]
  unfold ShareEdge
  rw [e]
  generalize i / (dims.2 - 1) = a at *
  generalize i % (dims.2 - 1) = b at *
  generalize j / (dims.2 - 1) = a' at *
  generalize j % (dims.2 - 1) = b' at *
  have hempty : ∀ S : Set P2, S = ∅ → S.Subsingleton := fun S hS => hS ▸ Set.subsingleton_empty
  have hY : (Y b : ℝ) ≤ Y (b + 1) := by exact_mod_cast (h.incY b hb).1.le
  have hX : (X a : ℝ) ≤ X (a + 1) := by exact_mod_cast (h.incX a ha).1.le
  rcases intervals h.incX a a' ha ha' with rfl | ⟨rfl, x1, x2⟩ | ⟨rfl, x1, x2⟩ | hx
  · rcases intervals h.incY b b' hb hb' with rfl | ⟨rfl, y1, y2⟩ | ⟨rfl, y1, y2⟩ | hy
    · exact absurd (by rw [ei, ej]) hij
    · left
      refine ⟨2, 0, Or.inr ⟨rfl, rfl⟩, ?_⟩
      rw [y1, y2, max_self, min_self]
      show _ ⊆ segment ℝ (gridNode dims x y (a + 1) (b + 1)) (gridNode dims x y a (b + 1))
      rw [h.node _ (by omega) _ (by omega), h.node _ (by omega) _ (by omega), segment_symm]
      exact app_segment_x φ _ _ _ hX
    · left
      refine ⟨0, 2, Or.inr ⟨rfl, rfl⟩, ?_⟩
      rw [y1, y2, max_self, min_self]
      show _ ⊆ segment ℝ (gridNode dims x y a (b' + 1)) (gridNode dims x y (a + 1) (b' + 1))
      rw [h.node _ (by omega) _ (by omega), h.node _ (by omega) _ (by omega)]
      exact app_segment_x φ _ _ _ hX
    · right
      rw [Set.Icc_eq_empty (not_le.2 hy), Set.prod_empty, Set.image_empty]
      exact Set.subsingleton_empty
  · rcases intervals h.incY b b' hb hb' with rfl | ⟨rfl, y1, y2⟩ | ⟨rfl, y1, y2⟩ | hy
    · left
      refine ⟨1, 3, Or.inr ⟨rfl, rfl⟩, ?_⟩
      rw [x1, x2, max_self, min_self]
      show _ ⊆ segment ℝ (gridNode dims x y (a + 1) b) (gridNode dims x y (a + 1) (b + 1))
      rw [h.node _ (by omega) _ (by omega), h.node _ (by omega) _ (by omega)]
      exact app_segment_y φ _ _ _ hY
    · right
      rw [x1, x2, y1, y2, Set.Icc_self, Set.Icc_self, Set.singleton_prod_singleton, Set.image_singleton]
      exact Set.subsingleton_singleton
    · right
      rw [x1, x2, y1, y2, Set.Icc_self, Set.Icc_self, Set.singleton_prod_singleton, Set.image_singleton]
      exact Set.subsingleton_singleton
    · right
      rw [Set.Icc_eq_empty (not_le.2 hy), Set.prod_empty, Set.image_empty]
      exact Set.subsingleton_empty
  · rcases intervals h.incY b b' hb hb' with rfl | ⟨rfl, y1, y2⟩ | ⟨rfl, y1, y2⟩ | hy
    · left
      refine ⟨3, 1, Or.inr ⟨rfl, rfl⟩, ?_⟩
      rw [x1, x2, max_self, min_self]
      show _ ⊆ segment ℝ (gridNode dims x y (a' + 1) (b + 1)) (gridNode dims x y (a' + 1) b)
      rw [h.node _ (by omega) _ (by omega), h.node _ (by omega) _ (by omega), segment_symm]
      exact app_segment_y φ _ _ _ hY
    · right
      rw [x1, x2, y1, y2, Set.Icc_self, Set.Icc_self, Set.singleton_prod_singleton, Set.image_singleton]
      exact Set.subsingleton_singleton
    · right
      rw [x1, x2, y1, y2, Set.Icc_self, Set.Icc_self, Set.singleton_prod_singleton, Set.image_singleton]
      exact Set.subsingleton_singleton
    · right
      rw [Set.Icc_eq_empty (not_le.2 hy), Set.prod_empty, Set.image_empty]
      exact Set.subsingleton_empty
  · right
    rw [Set.Icc_eq_empty (not_le.2 hx), Set.empty_prod, Set.image_empty]
    exact Set.subsingleton_empty

end lattice

/-! ### Grids made by `createRectangularGrid` -/

open Sg.Grids

/-- **C132** A grid made by `createRectangularGrid`, `n0 × n1` cells larger than the tolerances, regridded to itself: the weights are
computed without undefined behaviour, the table is the identity, and `apply` copies the values of the cells. -/
theorem C132_rectangular_partial (g : Gels ℝ) (hg : GelsContract g) (sort : List P2 → List P2) (hsort : ∀ l, IsStdSort l (sort l))
    (hst : StableShort sort) (per : Nat × Nat) (n0 n1 : Nat) (hn0 : 0 < n0) (hn1 : 0 < n1) (lo hi : ℝ × ℝ)
    (u0 : (1 / 1000000 : ℝ) < (hi.1 - lo.1) / n0) (u1 : (1 / 1000000 : ℝ) < (hi.2 - lo.2) / n1)
    (c : List ℝ × List ℝ) (h0 : (n0 + 1) * (n1 + 1) ≤ c.1.length) (h1 : (n0 + 1) * (n1 + 1) ≤ c.2.length) (o : Interp ℝ) (ho : o.weights = []) :
    ∃ r o', createRectangularGrid (n0 + 1) (n1 + 1) lo hi c = .ok r ∧
      setAndCompute g sort .keptBuffer o (n0 + 1, n1 + 1) r.1 r.2 (n0 + 1, n1 + 1) per r.1 r.2 = .ok o' ∧
      (∀ i < n0 * n1, ∀ j < n0 * n1, weightOf o'.weights i j = if i = j then 1 else 0) ∧
      ∀ srcData dstData : List ℝ, n0 * n1 ≤ srcData.length → n0 * n1 ≤ dstData.length →
        ∃ d', o'.apply srcData dstData = .ok d' ∧ d'.length = dstData.length ∧ ∀ i < n0 * n1, d'.getD i 0 = srcData.getD i 0 := by
  obtain ⟨r, er, -⟩ := C24_rectangular (n0 + 1) (n1 + 1) (by omega) (by omega) lo hi c h0 h1
  have hl := rect_lattice n0 n1 1 1 hn0 hn1 one_pos one_pos (by norm_num) (by norm_num) lo hi c r h0 h1 er
  have hφ := rectMap_large ((hi.1 - lo.1) / (n0 * (1 : Nat))) ((hi.2 - lo.2) / (n1 * (1 : Nat))) lo (by simpa using u0) (by simpa using u1)
  have hn : 0 < cellCount (n0 + 1, n1 + 1) := lattice_cells_pos hl
  have hcl := fun i hi j hj => lattice_clean hφ hl hl i hi j hj
  have hdim : 1 ≤ (n0 + 1, n1 + 1).1 ∧ 1 ≤ (n0 + 1, n1 + 1).2 := ⟨by show 1 ≤ n0 + 1; omega, by show 1 ≤ n1 + 1; omega⟩
  obtain ⟨o', h⟩ := C132_safe_partial g hg sort hsort (n0 + 1, n1 + 1) per r.1 r.2 hdim hl.lenX hl.lenY hcl hst
    (fun i hi => lattice_strict hl hφ i hi) (lattice_conforming hl hφ) hn o
  have hno := lattice_noOverlap hφ hl
  exact ⟨r, o', er, h, fun i hi j hj => C132_weight g hg sort hsort .keptBuffer (n0 + 1, n1 + 1) per r.1 r.2 hdim hl.lenX hl.lenY hcl hno o o' ho h
      i hi j hj,
    fun srcData dstData hs hd => C132_copy g hg sort hsort .keptBuffer (n0 + 1, n1 + 1) per r.1 r.2 hdim hl.lenX hl.lenY hcl hno o o' ho h
      srcData dstData hs hd⟩

/-! ### The hypotheses are met -/

section stable
open Sg.Witness

theorem insert_ties (f : P2 → ℝ) (r : ℝ) (a : P2) (l : List P2) :
    (l.orderedInsert (fun p q => f p ≤ f q) a).filter (fun p => decide (f p = r)) = (a :: l).filter fun p => decide (f p = r) := by
  induction l with
  | nil => rfl
  | cons b l ih =>
    by_cases hab : f a ≤ f b
    · rw [List.orderedInsert, if_pos hab]
    · rw [List.orderedInsert, if_neg hab, List.filter_cons, ih]
      by_cases hb : f b = r
      · have ha : ¬ f a = r := fun h => hab (by rw [h, hb])
        simp [List.filter_cons, ha, hb]
      · simp [List.filter_cons, hb]

theorem sort_ties (f : P2 → ℝ) (r : ℝ) (l : List P2) :
    (l.insertionSort fun p q => f p ≤ f q).filter (fun p => decide (f p = r)) = l.filter fun p => decide (f p = r) := by
  induction l with
  | nil => rfl
  | cons a l ih => rw [List.insertionSort_cons, insert_ties, List.filter_cons, List.filter_cons, ih]

/-- Sorting by insertion keeps ties in order. -/
theorem stdSort_stable : StableShort (stdSort : List P2 → List P2) := by
  intro l _ r
  have := sort_ties (distanceSquareFromCenter (gravityCenter l)) r l
  unfold stdSort
  convert this

end stable

/-- C132: the grid of two degrees on the whole sphere. -/
example : ∃ (r : List ℝ × List ℝ) (o o' : Interp ℝ) (d' : List ℝ),
    createRectangularGrid 181 91 (0, -90) (360, 90) (List.replicate 16471 0, List.replicate 16471 0) = .ok r ∧
    setAndCompute refGels Sg.Witness.stdSort .keptBuffer o (181, 91) r.1 r.2 (181, 91) (0, 0) r.1 r.2 = .ok o' ∧
    weightOf o'.weights 5000 5000 = 1 ∧ weightOf o'.weights 5000 5001 = 0 ∧
    o'.apply ((List.range 16200).map (fun i : Nat => (i : ℝ))) (List.replicate 16200 0) = .ok d' ∧ d'.getD 5000 0 = 5000 := by
  obtain ⟨r, o', h1, h2, h3, h4⟩ := C132_rectangular_partial refGels refGels_contract Sg.Witness.stdSort Sg.Witness.stdSort_ok stdSort_stable (0, 0)
    180 90 (by norm_num) (by norm_num) (0, -90) (360, 90) (by norm_num) (by norm_num) (List.replicate 16471 0, List.replicate 16471 0)
    (by rw [List.length_replicate]) (by rw [List.length_replicate]) { src := none, dst := none, weights := [], it := none, it2 := none } rfl
  obtain ⟨d', e, -, hv⟩ := h4 ((List.range 16200).map (fun i : Nat => (i : ℝ))) (List.replicate 16200 0)
    (by rw [List.length_map, List.length_range]) (by rw [List.length_replicate])
  refine ⟨r, _, o', d', h1, h2, ?_, ?_, e, ?_⟩
  · rw [h3 5000 (by norm_num) 5000 (by norm_num), if_pos rfl]
  · rw [h3 5000 (by norm_num) 5001 (by norm_num), if_neg (by norm_num)]
  · rw [hv 5000 (by norm_num)]
    rw [List.getD_eq_getElem?_getD, List.getElem?_map, List.getElem?_range (by norm_num)]
    norm_num

/-! ### Without the hypotheses -/

section refuted
open Sg.Witness

/-- The ends of an edge in turn. -/
def endsInTurn : List (Pt ℚ) := [(1/2, 0), (1/2, 1), (1/2, 0), (1/2, 1), (1/2, 0), (1/2, 1), (1/2, 0), (1/2, 1), (1/2, 0), (1/2, 1)]

/-- A sort that returns the tied points of that edge in turn. -/
def turnSort (l : List (Pt ℚ)) : List (Pt ℚ) :=
  if endsInTurn.isPerm l ∧ gravityCenter l = gravityCenter endsInTurn then endsInTurn else stdSort l

theorem turnSort_ok (l : List (Pt ℚ)) : IsStdSort l (turnSort l) := by
  unfold turnSort
  split
  · rename_i h
    refine ⟨List.isPerm_iff.1 h.1, ?_⟩
    unfold sortLt
    rw [h.2]
    decide +kernel
  · exact stdSort_ok l

/-- **C132** is false for a sort that may order ties at will, as the standard allows: two cells side by side, regridded to themselves,
read past the end of a vector. -/
theorem C132_ties_refuted : ∃ (g : Gels ℚ) (sort : List (Pt ℚ) → List (Pt ℚ)) (o : Interp ℚ) (d : List ℚ × List ℚ),
    GelsContract g ∧ (∀ l, IsStdSort l (sort l)) ∧ Conserve.new .lenient = .ok o ∧
    createRectangularGrid 3 2 (0, 0) (1, 1) ([0, 0, 0, 0, 0, 0], [0, 0, 0, 0, 0, 0]) = .ok d ∧
    setAndCompute g sort .keptBuffer o (3, 2) d.1 d.2 (3, 2) (0, 0) d.1 d.2 = .error .outOfBounds := by
  refine ⟨cramerGels, turnSort, { src := none, dst := none, weights := [], it := none, it2 := none },
    ([0, 0, 1/2, 1/2, 1, 1], [0, 1, 0, 1, 0, 1]), cramerGels_contract, turnSort_ok, rfl, ?_, ?_⟩ <;> decide +kernel

/-- **C132** is false by the standard, where erased elements of a vector cannot be read. -/
theorem C132_standard_refuted : ∃ (g : Gels ℚ) (sort : List (Pt ℚ) → List (Pt ℚ)) (o : Interp ℚ) (d : List ℚ × List ℚ),
    GelsContract g ∧ (∀ l, IsStdSort l (sort l)) ∧ Conserve.new .lenient = .ok o ∧
    createRectangularGrid 3 2 (0, 0) (1, 1) ([0, 0, 0, 0, 0, 0], [0, 0, 0, 0, 0, 0]) = .ok d ∧
    setAndCompute g sort .standard o (3, 2) d.1 d.2 (3, 2) (0, 0) d.1 d.2 = .error .outOfBounds := by
  refine ⟨cramerGels, stdSort, { src := none, dst := none, weights := [], it := none, it2 := none },
    ([0, 0, 1/2, 1/2, 1, 1], [0, 1, 0, 1, 0, 1]), cramerGels_contract, stdSort_ok, rfl, ?_, ?_⟩ <;> decide +kernel

end refuted

end Sg.Props
