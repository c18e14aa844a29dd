import Verif.Spec.Lattice
import Verif.Proof.AffineInv
import Verif.Props.ConserveExamples
/- Grids on a lattice: cells, region, tolerances. -/
namespace Sg.Props
open Sg.LinearSolve Sg.Triangulate Sg.QuadIntersect Sg.Conserve Sg.Spec Sg.Plane MeasureTheory

/-! ### Two boxes on a lattice -/

theorem exZ_convex {a b c d : ℤ} (hab : a < b) (hcd : c < d) : ZConvex (exZ a b c d) := by
  have : 0 < (b - a) * (d - c) := mul_pos (by omega) (by omega)
  have hp : ∀ i, 0 < zcross (exZ a b c d i) (exZ a b c d (i + 1)) (exZ a b c d (i + 2)) := by
    intro i
    fin_cases i <;> simp [exZ, zcross] <;> nlinarith
  exact ⟨.inl fun i => (hp i).le, 0, (hp 0).ne'⟩

theorem exZ_sides {a b c d : ℤ} (hab : a < b) (hab' : b - a ≤ 700000) (hcd : c < d) (hcd' : d - c ≤ 700000) :
    ∀ i j, |(exZ a b c d j).1 - (exZ a b c d i).1| ≤ 700000 ∧ |(exZ a b c d j).2 - (exZ a b c d i).2| ≤ 700000 := by
  intro i j
  fin_cases i <;> fin_cases j <;> simp [exZ] <;> first | (constructor <;> (rw [abs_le]; omega)) | (rw [abs_le]; omega)

theorem exZ_edge (a b c d : ℤ) (i : Fin 4) :
    (exZ a b c d i).1 = (exZ a b c d (i + 1)).1 ∨ (exZ a b c d i).2 = (exZ a b c d (i + 1)).2 := by
  fin_cases i
  · right; rfl
  · left; rfl
  · right; rfl
  · left; rfl

/-- The corner points of two boxes on the lattice are points of the lattice. -/
theorem exZ_corner {a b c d a' b' c' d' : ℤ} {p : P2} (h : p ∈ cornerPoints (zquad (exZ a b c d)) (zquad (exZ a' b' c' d'))) :
    ∃ u v : ℤ, p = ((u : ℝ), (v : ℝ)) := by
  rcases h with ⟨i, rfl, -⟩ | ⟨i, rfl, -⟩ | ⟨i, j, hdet, h1, h2⟩
  · exact ⟨_, _, rfl⟩
  · exact ⟨_, _, rfl⟩
  · rw [openSegment_eq_image'] at h1 h2
    obtain ⟨s, -, rfl⟩ := h1
    obtain ⟨t, -, heq⟩ := h2
    generalize hz : exZ a b c d = z at *
    generalize hz' : exZ a' b' c' d' = z' at *
    have hx : ((z' j).1 : ℝ) + t * ((z' (j + 1)).1 - (z' j).1) = (z i).1 + s * ((z (i + 1)).1 - (z i).1) :=
      congrArg Prod.fst heq
    have hy : ((z' j).2 : ℝ) + t * ((z' (j + 1)).2 - (z' j).2) = (z i).2 + s * ((z (i + 1)).2 - (z i).2) :=
      congrArg Prod.snd heq
    have hdet' : (((z (i + 1)).1 : ℝ) - (z i).1) * ((z' (j + 1)).2 - (z' j).2) -
      ((z (i + 1)).2 - (z i).2) * ((z' (j + 1)).1 - (z' j).1) ≠ 0 := hdet
    have e1 := exZ_edge a b c d i
    have e2 := exZ_edge a' b' c' d' j
    rw [hz] at e1
    rw [hz'] at e2
    rcases e1 with e1 | e1 <;> rcases e2 with e2 | e2
    · exact absurd (by rw [e1, e2]; ring) hdet'
    · refine ⟨(z i).1, (z' j).2, ?_⟩
      refine Prod.ext ?_ ?_
      · show ((z i).1 : ℝ) + s * ((z (i + 1)).1 - (z i).1) = _
        rw [← e1]; ring
      · show ((z i).2 : ℝ) + s * ((z (i + 1)).2 - (z i).2) = _
        rw [← hy, ← e2]; ring
    · refine ⟨(z' j).1, (z i).2, ?_⟩
      refine Prod.ext ?_ ?_
      · show ((z i).1 : ℝ) + s * ((z (i + 1)).1 - (z i).1) = _
        rw [← hx, ← e2]; ring
      · show ((z i).2 : ℝ) + s * ((z (i + 1)).2 - (z i).2) = _
        rw [← e1]; ring
    · exact absurd (by rw [e1, e2]; ring) hdet'

theorem largeUnits_ne {φ : AffineMap2} (h : LargeUnits φ) : φ.det ≠ 0 := by
  intro hz
  have := h.det
  rw [hz] at this
  norm_num at this

/-- Images of points of the lattice are clear of the tolerances. -/
theorem tolClean_lattice {φ : AffineMap2} (h : LargeUnits φ) {P : Set P2} (hP : ∀ p ∈ P, ∃ u v : ℤ, p = φ.app ((u : ℝ), (v : ℝ))) :
    TolClean P := by
  constructor
  · intro p hp q hq hne
    obtain ⟨u, v, rfl⟩ := hP p hp
    obtain ⟨u', v', rfl⟩ := hP q hq
    have := h.len (u' - u) (v' - v) (by
      by_contra hcon
      push Not at hcon
      exact hne (by rw [show u = u' by omega, show v = v' by omega]))
    simp only [AffineMap2.app]
    push_cast at this
    convert this using 2 <;> ring
  · intro p hp q hq r hr
    obtain ⟨u, v, rfl⟩ := hP p hp
    obtain ⟨u', v', rfl⟩ := hP q hq
    obtain ⟨u'', v'', rfl⟩ := hP r hr
    rw [area2_image, abs_mul]
    have e : area2 ((u : ℝ), (v : ℝ)) ((u' : ℝ), (v' : ℝ)) ((u'' : ℝ), (v'' : ℝ)) =
        (((u' - u) * (v'' - v) - (v' - v) * (u'' - u) : ℤ) : ℝ) := by
      simp only [area2]; push_cast; ring
    by_cases h0 : area2 ((u : ℝ), (v : ℝ)) ((u' : ℝ), (v' : ℝ)) ((u'' : ℝ), (v'' : ℝ)) = 0
    · left; rw [h0, mul_zero]
    · right
      have := one_le_abs_int e h0
      have h1 := h.det
      nlinarith [abs_nonneg φ.det]

/-- Two boxes on the lattice meet all the conditions on tolerances. -/
theorem cleanCells_lattice {φ : AffineMap2} (h : LargeUnits φ) {a b c d a' b' c' d' : ℤ}
    (hab : a < b) (sab : b - a ≤ 700000) (hcd : c < d) (scd : d - c ≤ 700000)
    (hab' : a' < b') (sab' : b' - a' ≤ 700000) (hcd' : c' < d') (scd' : d' - c' ≤ 700000) :
    CleanCells (fun k => φ.app (zquad (exZ a b c d) k)) (fun k => φ.app (zquad (exZ a' b' c' d') k)) := by
  have hn := largeUnits_ne h
  refine ⟨convexQuad_image φ hn _ (zquad_convex (exZ_convex hab hcd)), convexQuad_image φ hn _ (zquad_convex (exZ_convex hab' hcd')),
    clearPair_image φ hn _ _ (clearPair_sides (exZ_convex hab hcd) (exZ_convex hab' hcd') (exZ_sides hab sab hcd scd)
      (exZ_sides hab' sab' hcd' scd')), tolClean_lattice h ?_, tolClean_lattice h ?_⟩
  · rintro _ ⟨k, rfl⟩
    exact ⟨_, _, rfl⟩
  · intro p hp
    obtain ⟨q, hq, rfl⟩ := cornerPoints_image φ hn _ _ p hp
    obtain ⟨u, v, rfl⟩ := exZ_corner hq
    exact ⟨u, v, rfl⟩

/-! ### Grids -/

section grid
variable {φ : AffineMap2} {dims : Nat × Nat} {X Y : Nat → ℤ} {x y : List ℝ}

/-- Row and column of a cell. -/
theorem cell_split (dims : Nat × Nat) (k : Nat) (hk : k < cellCount dims) :
    k / (dims.2 - 1) + 1 < dims.1 ∧ k % (dims.2 - 1) + 1 < dims.2 ∧ k = k / (dims.2 - 1) * (dims.2 - 1) + k % (dims.2 - 1) := by
  unfold cellCount at hk
  have h2 : 0 < dims.2 - 1 := by
    rcases Nat.eq_zero_or_pos (dims.2 - 1) with h | h
    · rw [h] at hk; simp at hk
    · exact h
  have h1 : k / (dims.2 - 1) < dims.1 - 1 := Nat.div_lt_of_lt_mul (by rw [Nat.mul_comm]; exact hk)
  have h3 : k % (dims.2 - 1) < dims.2 - 1 := Nat.mod_lt _ h2
  have h4 := Nat.div_add_mod k (dims.2 - 1)
  rw [Nat.mul_comm] at h4
  generalize k / (dims.2 - 1) = u at *
  generalize k % (dims.2 - 1) = v at *
  omega

theorem cell_join (dims : Nat × Nat) (a b : Nat) (ha : a + 1 < dims.1) (hb : b + 1 < dims.2) :
    a * (dims.2 - 1) + b < cellCount dims ∧ (a * (dims.2 - 1) + b) / (dims.2 - 1) = a ∧ (a * (dims.2 - 1) + b) % (dims.2 - 1) = b := by
  have hv : b < dims.2 - 1 := by omega
  refine ⟨?_, ?_, ?_⟩
  · unfold cellCount
    calc a * (dims.2 - 1) + b < a * (dims.2 - 1) + (dims.2 - 1) := by omega
      _ = (a + 1) * (dims.2 - 1) := by ring
      _ ≤ _ := Nat.mul_le_mul_right _ (by omega)
  · rw [Nat.add_comm, Nat.add_mul_div_right _ _ (by omega), Nat.div_eq_of_lt hv, Nat.zero_add]
  · rw [Nat.add_comm, Nat.add_mul_mod_self_right, Nat.mod_eq_of_lt hv]

theorem lattice_cell (h : LatticeGrid φ dims X Y x y) (a b : Nat) (ha : a + 1 < dims.1) (hb : b + 1 < dims.2) :
    gridCellAt dims x y a b = fun k => φ.app (zquad (exZ (X a) (X (a + 1)) (Y b) (Y (b + 1))) k) := by
  funext k
  fin_cases k
  · exact h.node a (by omega) b (by omega)
  · exact h.node (a + 1) (by omega) b (by omega)
  · exact h.node (a + 1) (by omega) (b + 1) (by omega)
  · exact h.node a (by omega) (b + 1) (by omega)

theorem lattice_region (h : LatticeGrid φ dims X Y x y) (a b : Nat) (ha : a + 1 < dims.1) (hb : b + 1 < dims.2) :
    quadRegion (gridCellAt dims x y a b) =
      φ.app '' (Set.Icc (X a : ℝ) (X (a + 1)) ×ˢ Set.Icc (Y b : ℝ) (Y (b + 1))) := by
  rw [lattice_cell h a b ha hb, region_image, ex_box (h.incX a ha).1.le (h.incY b hb).1.le]

theorem area_box' (a b c d : ℝ) : area (Set.Icc a b ×ˢ Set.Icc c d) = max 0 (b - a) * max 0 (d - c) := by
  rw [area, Measure.volume_eq_prod, Measure.prod_prod, Real.volume_Icc, Real.volume_Icc, ENNReal.toReal_mul,
    ENNReal.toReal_ofReal', ENNReal.toReal_ofReal', max_comm, max_comm (d - c)]

/-- Lines in order. -/
theorem lines_mono {n : Nat} {X : Nat → ℤ} {B : ℤ} (h : ∀ i, i + 1 < n → X i < X (i + 1) ∧ X (i + 1) - X i ≤ B) :
    ∀ i j, i < j → j < n → X i < X j := by
  intro i j hij
  induction j with
  | zero => omega
  | succ j ih =>
    intro hj
    rcases Nat.lt_or_ge i j with h1 | h1
    · exact (ih h1 (by omega)).trans (h j hj).1
    · rw [show i = j by omega]; exact (h j hj).1

/-- Every point between the first and the last line is between two neighbours. -/
theorem lines_cover {n : Nat} {X : Nat → ℤ} (hn : 2 ≤ n) (t : ℝ) (h0 : (X 0 : ℝ) ≤ t) (h1 : t ≤ X (n - 1)) :
    ∃ i, i + 1 < n ∧ (X i : ℝ) ≤ t ∧ t ≤ X (i + 1) := by
  by_contra hcon
  push Not at hcon
  have : ∀ i, i + 1 < n → (X (i + 1) : ℝ) < t := by
    intro i
    induction i with
    | zero => intro h; exact hcon 0 h h0
    | succ i ih => intro h; exact hcon (i + 1) h (ih (by omega)).le
  have h2 := this (n - 2) (by omega)
  rw [show n - 2 + 1 = n - 1 by omega] at h2
  linarith

theorem lattice_gridRegion (h : LatticeGrid φ dims X Y x y) :
    gridRegion dims x y = φ.app '' (Set.Icc (X 0 : ℝ) (X (dims.1 - 1)) ×ˢ Set.Icc (Y 0 : ℝ) (Y (dims.2 - 1))) := by
  have mono : ∀ {n : Nat} {Z : Nat → ℤ}, (∀ i, i + 1 < n → Z i < Z (i + 1) ∧ Z (i + 1) - Z i ≤ 700000) →
      ∀ i, i + 1 < n → (Z 0 : ℝ) ≤ Z i ∧ (Z (i + 1) : ℝ) ≤ Z (n - 1) := by
    intro n Z hZ i hi
    have := lines_mono hZ
    constructor
    · rcases Nat.eq_zero_or_pos i with rfl | h0
      · exact le_rfl
      · exact_mod_cast (this 0 i h0 (by omega)).le
    · rcases Nat.lt_or_ge (i + 1) (n - 1) with h0 | h0
      · exact_mod_cast (this (i + 1) (n - 1) h0 (by omega)).le
      · rw [show i + 1 = n - 1 by omega]
  unfold gridRegion
  ext p
  simp only [Set.mem_iUnion, Finset.mem_range, exists_prop]
  constructor
  · rintro ⟨k, hk, hp⟩
    obtain ⟨ha, hb, -⟩ := cell_split dims k hk
    unfold gridCell at hp
    rw [lattice_region h _ _ ha hb] at hp
    obtain ⟨q, ⟨⟨q1, q2⟩, q3, q4⟩, rfl⟩ := hp
    exact ⟨q, ⟨⟨(mono h.incX _ ha).1.trans q1, q2.trans (mono h.incX _ ha).2⟩, (mono h.incY _ hb).1.trans q3,
      q4.trans (mono h.incY _ hb).2⟩, rfl⟩
  · rintro ⟨q, ⟨⟨q1, q2⟩, q3, q4⟩, rfl⟩
    obtain ⟨a, ha, a1, a2⟩ := lines_cover h.two0 q.1 q1 q2
    obtain ⟨b, hb, b1, b2⟩ := lines_cover h.two1 q.2 q3 q4
    obtain ⟨c1, c2, c3⟩ := cell_join dims a b ha hb
    refine ⟨a * (dims.2 - 1) + b, c1, ?_⟩
    unfold gridCell
    rw [c2, c3, lattice_region h a b ha hb]
    exact ⟨q, ⟨⟨a1, a2⟩, b1, b2⟩, rfl⟩

theorem lines_apart {n : Nat} {X : Nat → ℤ} (h : ∀ i, i + 1 < n → X i < X (i + 1) ∧ X (i + 1) - X i ≤ 700000) (i j : Nat)
    (hi : i + 1 < n) (hj : j + 1 < n) (hij : i ≠ j) : max 0 (min (X (i + 1) : ℝ) (X (j + 1)) - max (X i : ℝ) (X j)) = 0 := by
  have key : ∀ i j, i + 1 < n → j + 1 < n → i < j → (X (i + 1) : ℝ) ≤ X j := by
    intro i j hi hj hlt
    rcases Nat.lt_or_ge (i + 1) j with h1 | h1
    · exact_mod_cast (lines_mono h (i + 1) j h1 (by omega)).le
    · rw [show i + 1 = j by omega]
  apply max_eq_left
  rcases Nat.lt_or_gt_of_ne hij with hlt | hlt
  · have := key i j hi hj hlt
    linarith [min_le_left (X (i + 1) : ℝ) (X (j + 1)), le_max_right (X i : ℝ) (X j)]
  · have := key j i hj hi hlt
    linarith [min_le_right (X (i + 1) : ℝ) (X (j + 1)), le_max_left (X i : ℝ) (X j)]

theorem lattice_noOverlap (hφ : LargeUnits φ) (h : LatticeGrid φ dims X Y x y) : NoOverlap dims x y := by
  intro i hi j hj hij
  obtain ⟨ha, hb, e⟩ := cell_split dims i hi
  obtain ⟨ha', hb', e'⟩ := cell_split dims j hj
  unfold gridCell
  rw [lattice_region h _ _ ha hb, lattice_region h _ _ ha' hb', ← Set.image_inter (app_inj φ (largeUnits_ne hφ)), area_image,
    ex_inter, area_box']
  by_cases h1 : i / (dims.2 - 1) = j / (dims.2 - 1)
  · by_cases h2 : i % (dims.2 - 1) = j % (dims.2 - 1)
    · exact absurd (by rw [e, e', h1, h2]) hij
    · rw [lines_apart h.incY _ _ hb hb' h2]; ring
  · rw [lines_apart h.incX _ _ ha ha' h1]; ring

end grid

end Sg.Props
