import Verif.Props.Grids
import Verif.Props.ConserveExamples
import Verif.Proof.Polar
import Verif.Proof.AffineInv
import Verif.Spec.Polygon
import Mathlib.Analysis.Convex.Measure
/-
Property C98: the cells of a polar grid, and regridding from and to polar grids.
-/
namespace Sg.Props
open Sg Sg.Grids Sg.LinearSolve Sg.Triangulate Sg.QuadIntersect Sg.Conserve Sg.Spec Sg.Plane Sg.Witness Sg.Polar MeasureTheory
open Real (sin cos pi)

theorem polygon_eq (n : Nat) (r : ℝ) : regularPolygon n r = polygon n r := by
  have : ∀ j, polygonCorner n r j = corner n r j := by
    intro j
    simp only [polygonCorner, corner, dir, Prod.smul_mk, smul_eq_mul]
    rw [show 2 * pi / n * j = 2 * pi * j / n by ring]
  simp only [regularPolygon, polygon, this]

section
variable (m n : Nat) (hm : 1 ≤ m) (hn : 3 ≤ n) (R : ℝ) (hR : 0 < R) (c r : List ℝ × List ℝ)
  (hc0 : (m + 1) * (n + 1) ≤ c.1.length) (hc1 : (m + 1) * (n + 1) ≤ c.2.length)
  (hr : createPolarGrid (m + 1) (n + 1) (0, 0) R c = .ok r)

include hm hn hc0 hc1 hr in
theorem polar_node (i j : Nat) (hi : i ≤ m) (hj : j ≤ n) :
    gridNode (m + 1, n + 1) r.1 r.2 i j = (R / m * i) • dir (2 * pi / n * j) := by
  obtain ⟨r', h1, h2⟩ := C25_polar_partial (m + 1) (n + 1) (by omega) (by omega) R c hc0 hc1
  rw [hr] at h1
  cases h1
  obtain ⟨a, b⟩ := h2 i j (by omega) (by omega)
  have e1 : (i : ℝ) * R / (((m + 1 : Nat) : ℝ) - 1) = R / m * i := by push_cast; ring
  have e2 : 2 * pi * (j : ℝ) / (((n + 1 : Nat) : ℝ) - 1) = 2 * pi / n * j := by push_cast; ring
  rw [e1, e2] at a b
  simp only [gridNode, List.getD_eq_getElem?_getD, a, b, Option.getD_some, dir, Prod.smul_mk, smul_eq_mul]

include hc0 hc1 hr hn in
theorem polar_cell (i j : Nat) (hi : i < m) (hj : j < n) :
    gridCell (m + 1, n + 1) r.1 r.2 (i * n + j) =
      wedgeQuad (2 * pi / n * j) (2 * pi / n) (R / m * i) (R / m * (i + 1)) := by
  have hdiv : (i * n + j) / n = i := by
    rw [Nat.add_comm, Nat.add_mul_div_right _ _ (by omega), Nat.div_eq_of_lt hj, Nat.zero_add]
  have hmod : (i * n + j) % n = j := by
    rw [Nat.add_comm, Nat.add_mul_mod_self_right, Nat.mod_eq_of_lt hj]
  have hd : 2 * pi / n * ((j + 1 : Nat) : ℝ) = 2 * pi / n * j + 2 * pi / n := by push_cast; ring
  have hri : R / m * ((i + 1 : Nat) : ℝ) = R / m * (i + 1) := by push_cast; ring
  funext k
  simp only [gridCell, Nat.add_sub_cancel, hdiv, hmod]
  fin_cases k
  · exact polar_node m n (by omega) hn R c r hc0 hc1 hr i j (by omega) (by omega)
  · refine (polar_node m n (by omega) hn R c r hc0 hc1 hr (i + 1) j (by omega) (by omega)).trans ?_
    rw [hri]; rfl
  · refine (polar_node m n (by omega) hn R c r hc0 hc1 hr (i + 1) (j + 1) (by omega) (by omega)).trans ?_
    rw [hri, hd]; rfl
  · refine (polar_node m n (by omega) hn R c r hc0 hc1 hr i (j + 1) (by omega) (by omega)).trans ?_
    rw [hd]; rfl

theorem sum_range_mul (f : Nat → ℝ) (m n : Nat) :
    ∑ k ∈ Finset.range (m * n), f k = ∑ i ∈ Finset.range m, ∑ j ∈ Finset.range n, f (i * n + j) := by
  induction m with
  | zero => simp
  | succ k ih => rw [Nat.succ_mul, Finset.sum_range_add, ih, Finset.sum_range_succ]

theorem polar_count : cellCount (m + 1, n + 1) = m * n := rfl

include hn in
/-- A cell number is a ring and a sector. -/
theorem polar_index (k : Nat) (hk : k < cellCount (m + 1, n + 1)) : ∃ i j, i < m ∧ j < n ∧ k = i * n + j := by
  rw [polar_count] at hk
  refine ⟨k / n, k % n, ?_, Nat.mod_lt _ (by omega), ?_⟩
  · exact Nat.div_lt_of_lt_mul (by rwa [Nat.mul_comm] at hk)
  · rw [Nat.mul_comm]; exact (Nat.div_add_mod k n).symm

include hn in
theorem polar_angle : 0 < 2 * pi / n ∧ 2 * pi / n < pi ∧ 0 < sin (2 * pi / n) := by
  have hn0 : (3 : ℝ) ≤ n := by exact_mod_cast hn
  have hp := Real.pi_pos
  have h1 : 0 < 2 * pi / n := by positivity
  have h2 : 2 * pi / n < pi := by rw [div_lt_iff₀ (by linarith)]; nlinarith
  exact ⟨h1, h2, Real.sin_pos_of_pos_of_lt_pi h1 h2⟩

include hm hR in
theorem polar_radii (i : Nat) : 0 ≤ R / m * i ∧ R / m * i < R / m * (i + 1) := by
  have : (0 : ℝ) < m := by exact_mod_cast hm
  have h : 0 < R / m := by positivity
  exact ⟨by positivity, by nlinarith⟩

include hm hn hR hc0 hc1 hr

/-- C98: every cell of a polar grid is a convex quadrilateral; the cells at the pole have two equal corners. -/
theorem C98_convex (k : Nat) (hk : k < cellCount (m + 1, n + 1)) :
    ConvexQuad (gridCell (m + 1, n + 1) r.1 r.2 k) ∧
      (k < n → gridCell (m + 1, n + 1) r.1 r.2 k 0 = (0, 0) ∧ gridCell (m + 1, n + 1) r.1 r.2 k 3 = (0, 0)) := by
  obtain ⟨i, j, hi, hj, rfl⟩ := polar_index m n hn k hk
  rw [polar_cell m n hn R c r hc0 hc1 hr i j hi hj]
  obtain ⟨h1, h2⟩ := polar_radii m hm R hR i
  refine ⟨wedgeQuad_convex (polar_angle n hn).2.2 h1 h2, fun h => ?_⟩
  have : i = 0 := by
    rcases Nat.eq_zero_or_pos i with h0 | h0
    · exact h0
    · have := Nat.mul_le_mul_right n h0
      omega
  subst this
  constructor <;> simp [wedgeQuad] <;> rfl

/-- C98: the cells of a polar grid do not overlap. -/
theorem C98_no_overlap : NoOverlap (m + 1, n + 1) r.1 r.2 := by
  intro k hk k' hk' hne
  obtain ⟨i, j, hi, hj, rfl⟩ := polar_index m n hn k hk
  obtain ⟨i', j', hi', hj', rfl⟩ := polar_index m n hn k' hk'
  rw [polar_cell m n hn R c r hc0 hc1 hr i j hi hj, polar_cell m n hn R c r hc0 hc1 hr i' j' hi' hj']
  obtain ⟨h1, h2⟩ := polar_radii m hm R hR i
  obtain ⟨h1', h2'⟩ := polar_radii m hm R hR i'
  obtain ⟨d0, d1, d2⟩ := polar_angle n hn
  rw [region_wedge h1 h2, region_wedge h1' h2']
  have hmp : (0 : ℝ) < m := by exact_mod_cast hm
  have hq : 0 < R / m := by positivity
  have hnp : (0 : ℝ) < n := by exact_mod_cast (show 0 < n by omega)
  have htop : 2 * pi / n * n = 2 * pi := by field_simp
  have ring : ∀ a b : Nat, a < b → R / m * ((a : ℝ) + 1) ≤ R / m * b := fun a b h =>
    mul_le_mul_of_nonneg_left (by exact_mod_cast h) hq.le
  have sect : ∀ a b : Nat, a < b → 2 * pi / n * (a : ℝ) + 2 * pi / n ≤ 2 * pi / n * b := fun a b h => by
    have : 2 * pi / n * ((a : ℝ) + 1) ≤ 2 * pi / n * b := mul_le_mul_of_nonneg_left (by exact_mod_cast h) d0.le
    linarith
  unfold area
  rw [ENNReal.toReal_eq_zero_iff]
  left
  rcases Nat.lt_trichotomy j j' with h | h | h
  · exact wedge_null_sector d0 d1 (by positivity) ((sect j' n hj').trans_eq htop) (sect j j' h)
  · subst h
    rcases Nat.lt_trichotomy i i' with h | h | h
    · exact wedge_null_ring d2 (by linarith) (ring i i' h)
    · subst h; exact absurd rfl hne
    · rw [Set.inter_comm]
      exact wedge_null_ring d2 (by linarith) (ring i' i h)
  · rw [Set.inter_comm]
    exact wedge_null_sector d0 d1 (by positivity) ((sect j n hj).trans_eq htop) (sect j' j h)

/-- C98: together the cells of a polar grid with `n` sectors cover the regular polygon with `n` corners. -/
theorem C98_covers : gridRegion (m + 1, n + 1) r.1 r.2 = regularPolygon n R := by
  have hmp : (0 : ℝ) < m := by exact_mod_cast hm
  have hq : 0 < R / m := by positivity
  have hRm : R / m * m = R := by field_simp
  rw [polygon_eq]
  apply Set.Subset.antisymm
  · intro p hp
    simp only [gridRegion, Set.mem_iUnion, Finset.mem_range, exists_prop] at hp
    obtain ⟨k, hk, hp⟩ := hp
    obtain ⟨i, j, hi, hj, rfl⟩ := polar_index m n hn k hk
    obtain ⟨h1, h2⟩ := polar_radii m hm R hR i
    rw [polar_cell m n hn R c r hc0 hc1 hr i j hi hj, region_wedge h1 h2] at hp
    obtain ⟨s, t, hs, ht, h3, h4, rfl⟩ := hp
    refine wedge_polygon n hn hR j hj ⟨s, t, hs, ht, by linarith, ?_, rfl⟩
    have : R / m * ((i : ℝ) + 1) ≤ R / m * m := mul_le_mul_of_nonneg_left (by exact_mod_cast hi) hq.le
    linarith
  · intro p hp
    obtain ⟨j, hj, s, t, hs, ht, -, h4, rfl⟩ := polygon_sector n hn hR p hp
    simp only [gridRegion, Set.mem_iUnion, Finset.mem_range, exists_prop]
    -- the ring
    obtain ⟨i, hi, f1, f2⟩ : ∃ i < m, R / m * i ≤ s + t ∧ s + t ≤ R / m * (i + 1) := by
      rcases Nat.lt_or_ge ⌊(s + t) / (R / m)⌋₊ m with h | h
      · refine ⟨_, h, ?_, ?_⟩
        · have := Nat.floor_le (show 0 ≤ (s + t) / (R / m) by positivity)
          rw [le_div_iff₀ hq] at this
          linarith
        · have := Nat.lt_floor_add_one ((s + t) / (R / m))
          rw [div_lt_iff₀ hq] at this
          linarith
      · have h5 : (m : ℝ) ≤ (s + t) / (R / m) := Nat.le_floor_iff (by positivity) |>.mp h
        rw [le_div_iff₀ hq] at h5
        refine ⟨m - 1, by omega, ?_, ?_⟩
        · have : ((m - 1 : Nat) : ℝ) ≤ m := by exact_mod_cast Nat.sub_le m 1
          nlinarith
        · have : ((m - 1 : Nat) : ℝ) + 1 = m := by exact_mod_cast Nat.sub_add_cancel hm
          rw [this]
          linarith
    refine ⟨i * n + j, ?_, ?_⟩
    · rw [polar_count]
      have := Nat.mul_le_mul_right n hi
      rw [Nat.succ_mul] at this
      omega
    · obtain ⟨h1, h2⟩ := polar_radii m hm R hR i
      rw [polar_cell m n hn R c r hc0 hc1 hr i j hi hj, region_wedge h1 h2]
      exact ⟨s, t, hs, ht, f1, f2, rfl⟩

/-- C98: the area of a cell of ring `i`. -/
theorem C98_area (i j : Nat) (hi : i < m) (hj : j < n) :
    area (quadRegion (gridCell (m + 1, n + 1) r.1 r.2 (i * n + j))) = (2 * i + 1) * (R / m) ^ 2 * sin (2 * pi / n) / 2 := by
  obtain ⟨h1, h2⟩ := polar_radii m hm R hR i
  rw [polar_cell m n hn R c r hc0 hc1 hr i j hi hj, region_wedge h1 h2, area_wedge (polar_angle n hn).2.2 h1 h2]
  ring

/-- C98: the cells together have the area of the polygon. -/
theorem C98_area_sum : ∑ k ∈ Finset.range (cellCount (m + 1, n + 1)), area (quadRegion (gridCell (m + 1, n + 1) r.1 r.2 k)) =
    area (regularPolygon n R) ∧ area (regularPolygon n R) = n * R ^ 2 * sin (2 * pi / n) / 2 := by
  have hmp : (0 : ℝ) < m := by exact_mod_cast hm
  have hcov := C98_covers m n hm hn R hR c r hc0 hc1 hr
  have hno := C98_no_overlap m n hm hn R hR c r hc0 hc1 hr
  have hcomp : IsCompact (regularPolygon n R) := by
    rw [← hcov, gridRegion]
    exact (Finset.range _).isCompact_biUnion fun k _ => isCompact_region _
  have e1 := area_parts hcomp (fun k => quadRegion (gridCell (m + 1, n + 1) r.1 r.2 k)) (fun k => isCompact_region _) _ hno
  have e2 : ∀ k ∈ Finset.range (cellCount (m + 1, n + 1)),
      area (regularPolygon n R ∩ quadRegion (gridCell (m + 1, n + 1) r.1 r.2 k)) =
        area (quadRegion (gridCell (m + 1, n + 1) r.1 r.2 k)) := by
    intro k hk
    congr 1
    apply Set.inter_eq_right.mpr
    rw [← hcov]
    exact Set.subset_biUnion_of_mem (u := fun i => quadRegion (gridCell (m + 1, n + 1) r.1 r.2 i)) hk
  rw [Finset.sum_congr rfl e2] at e1
  have e3 : regularPolygon n R ∩ ⋃ j ∈ Finset.range (cellCount (m + 1, n + 1)), quadRegion (gridCell (m + 1, n + 1) r.1 r.2 j) =
      regularPolygon n R := by
    have : (⋃ j ∈ Finset.range (cellCount (m + 1, n + 1)), quadRegion (gridCell (m + 1, n + 1) r.1 r.2 j)) = regularPolygon n R := hcov
    rw [this, Set.inter_self]
  rw [e3] at e1
  refine ⟨e1.symm, ?_⟩
  rw [e1, polar_count]
  have e4 : ∑ k ∈ Finset.range (m * n), area (quadRegion (gridCell (m + 1, n + 1) r.1 r.2 k)) =
      ∑ i ∈ Finset.range m, ∑ j ∈ Finset.range n, area (quadRegion (gridCell (m + 1, n + 1) r.1 r.2 (i * n + j))) :=
    sum_range_mul _ m n
  rw [e4]
  have e5 : ∀ i ∈ Finset.range m, ∑ j ∈ Finset.range n, area (quadRegion (gridCell (m + 1, n + 1) r.1 r.2 (i * n + j))) =
      n * ((R / m) ^ 2 * sin (2 * pi / n) / 2) * (2 * i + 1) := by
    intro i hi
    rw [Finset.sum_congr rfl fun j hj => C98_area m n hm hn R hR c r hc0 hc1 hr i j (Finset.mem_range.mp hi) (Finset.mem_range.mp hj)]
    rw [Finset.sum_const, Finset.card_range, nsmul_eq_mul]
    ring
  rw [Finset.sum_congr rfl e5, ← Finset.mul_sum]
  have e6 : ∀ k : Nat, ∑ i ∈ Finset.range k, (2 * (i : ℝ) + 1) = k ^ 2 := by
    intro k
    induction k with
    | zero => simp
    | succ k ih => rw [Finset.sum_range_succ, ih]; push_cast; ring
  rw [e6]
  field_simp

end

section regrid
variable (g : Gels ℝ) (hg : GelsContract g) (sort : List P2 → List P2) (hsort : ∀ l, IsStdSort l (sort l)) (mode : Mode)
  (m n : Nat) (hm : 1 ≤ m) (hn : 3 ≤ n) (R : ℝ) (hR : 0 < R) (c r : List ℝ × List ℝ)
  (hc0 : (m + 1) * (n + 1) ≤ c.1.length) (hc1 : (m + 1) * (n + 1) ≤ c.2.length)
  (hr : createPolarGrid (m + 1) (n + 1) (0, 0) R c = .ok r)
  (dims per : Nat × Nat) (x y : List ℝ) (hd : 1 ≤ dims.1 ∧ 1 ≤ dims.2) (hx : dims.1 * dims.2 ≤ x.length)
  (hy : dims.1 * dims.2 ≤ y.length)

include hc0 hc1 hr in
theorem polar_lengths : (m + 1) * (n + 1) ≤ r.1.length ∧ (m + 1) * (n + 1) ≤ r.2.length := by
  unfold createPolarGrid at hr
  obtain ⟨r', e, h1, h2, -⟩ := fillNodes_spec (m + 1) (n + 1) _ c hc0 hc1
  rw [e] at hr
  cases hr
  rw [h1, h2]
  exact ⟨hc0, hc1⟩

include hg hsort hm hn hR hc0 hc1 hr hd hx hy

/-- C98: regridding to a polar grid.  The total over the cells of the polar grid is the total over the source cells of
value times the area that lies in the polygon.  Missing: that the weights are computed at all, see
`C98_standard_refuted`. -/
theorem C98_to_polar_partial
    (hc : ∀ i < cellCount (m + 1, n + 1), ∀ j < cellCount dims,
      CleanCells (gridCell (m + 1, n + 1) r.1 r.2 i) (gridCell dims x y j))
    (o o' : Interp ℝ) (h0 : o.weights = [])
    (h : setAndCompute g sort mode o (m + 1, n + 1) r.1 r.2 dims per x y = .ok o')
    (srcData dstData : List ℝ) (hlen : cellCount dims ≤ srcData.length) (hlen' : m * n ≤ dstData.length)
    (hpos : 0 < cellCount dims) (hzero : ∀ i < m * n, dstData.getD i 0 = 0) :
    ∃ d', o'.apply srcData dstData = .ok d' ∧ d'.length = dstData.length ∧
      ∑ i ∈ Finset.range m, ∑ j ∈ Finset.range n,
          (2 * i + 1) * (R / m) ^ 2 * sin (2 * pi / n) / 2 * d'.getD (i * n + j) 0 =
        ∑ k ∈ Finset.range (cellCount dims), area (quadRegion (gridCell dims x y k) ∩ regularPolygon n R) * srcData.getD k 0 := by
  obtain ⟨l1, l2⟩ := polar_lengths m n R c r hc0 hc1 hr
  obtain ⟨d', e, hl, ht⟩ := C58_total g hg sort hsort mode (m + 1, n + 1) dims per r.1 r.2 x y
    ⟨Nat.succ_le_succ (Nat.zero_le _), Nat.succ_le_succ (Nat.zero_le _)⟩ hd l1 l2 hx hy hc o o' h0 h srcData dstData hlen hlen'
    (C98_no_overlap m n hm hn R hR c r hc0 hc1 hr) hpos (fun i hi _ => hzero i hi)
  refine ⟨d', e, hl, ?_⟩
  rw [C98_covers m n hm hn R hR c r hc0 hc1 hr] at ht
  rw [← ht, polar_count, sum_range_mul]
  refine Finset.sum_congr rfl fun i hi => Finset.sum_congr rfl fun j hj => ?_
  rw [C98_area m n hm hn R hR c r hc0 hc1 hr i j (Finset.mem_range.mp hi) (Finset.mem_range.mp hj)]

/-- C98: regridding from a polar grid to a grid that covers the polygon, with cells that do not overlap, conserves the
total. -/
theorem C98_from_polar
    (hc : ∀ i < cellCount dims, ∀ j < cellCount (m + 1, n + 1),
      CleanCells (gridCell dims x y i) (gridCell (m + 1, n + 1) r.1 r.2 j))
    (o o' : Interp ℝ) (h0 : o.weights = [])
    (h : setAndCompute g sort mode o dims x y (m + 1, n + 1) per r.1 r.2 = .ok o')
    (srcData dstData : List ℝ) (hlen : m * n ≤ srcData.length) (hlen' : cellCount dims ≤ dstData.length)
    (hno : NoOverlap dims x y) (hcov : regularPolygon n R ⊆ gridRegion dims x y)
    (hzero : ∀ i < cellCount dims, dstData.getD i 0 = 0) :
    ∃ d', o'.apply srcData dstData = .ok d' ∧ d'.length = dstData.length ∧
      ∑ k ∈ Finset.range (cellCount dims), area (quadRegion (gridCell dims x y k)) * d'.getD k 0 =
        ∑ i ∈ Finset.range m, ∑ j ∈ Finset.range n,
          (2 * i + 1) * (R / m) ^ 2 * sin (2 * pi / n) / 2 * srcData.getD (i * n + j) 0 := by
  obtain ⟨l1, l2⟩ := polar_lengths m n R c r hc0 hc1 hr
  have hpos : 0 < cellCount (m + 1, n + 1) := by
    rw [polar_count]; exact Nat.mul_pos (by omega) (by omega)
  obtain ⟨d', e, hl, ht⟩ := C58_total g hg sort hsort mode dims (m + 1, n + 1) per x y r.1 r.2 hd
    ⟨Nat.succ_le_succ (Nat.zero_le _), Nat.succ_le_succ (Nat.zero_le _)⟩ hx hy l1 l2 hc o o' h0 h srcData dstData hlen hlen'
    hno hpos (fun i hi _ => hzero i hi)
  refine ⟨d', e, hl, ?_⟩
  rw [ht, polar_count, sum_range_mul]
  refine Finset.sum_congr rfl fun i hi => Finset.sum_congr rfl fun j hj => ?_
  have hi' := Finset.mem_range.mp hi
  have hj' := Finset.mem_range.mp hj
  have hk : i * n + j < cellCount (m + 1, n + 1) := by
    rw [polar_count]
    have := Nat.mul_le_mul_right n hi'
    rw [Nat.succ_mul] at this
    omega
  rw [← C98_area m n hm hn R hR c r hc0 hc1 hr i j hi' hj']
  congr 2
  apply Set.inter_eq_left.mpr
  refine Set.Subset.trans ?_ hcov
  rw [← C98_covers m n hm hn R hR c r hc0 hc1 hr]
  exact Set.subset_biUnion_of_mem (u := fun i => quadRegion (gridCell (m + 1, n + 1) r.1 r.2 i)) (Finset.mem_range.mpr hk)

/-- C98: a constant on a polar grid becomes the constant in the cells inside the polygon. -/
theorem C98_constant
    (hc : ∀ i < cellCount dims, ∀ j < cellCount (m + 1, n + 1),
      CleanCells (gridCell dims x y i) (gridCell (m + 1, n + 1) r.1 r.2 j))
    (o o' : Interp ℝ) (h0 : o.weights = [])
    (h : setAndCompute g sort mode o dims x y (m + 1, n + 1) per r.1 r.2 = .ok o')
    (srcData dstData : List ℝ) (hlen : m * n ≤ srcData.length) (hlen' : cellCount dims ≤ dstData.length)
    (v : ℝ) (hconst : ∀ j < m * n, srcData.getD j 0 = v) :
    ∃ d', o'.apply srcData dstData = .ok d' ∧ d'.length = dstData.length ∧
      ∀ i < cellCount dims, quadRegion (gridCell dims x y i) ⊆ regularPolygon n R → d'.getD i 0 = v := by
  obtain ⟨l1, l2⟩ := polar_lengths m n R c r hc0 hc1 hr
  have hpos : 0 < cellCount (m + 1, n + 1) := by
    rw [polar_count]; exact Nat.mul_pos (by omega) (by omega)
  obtain ⟨d', e, hl, ht⟩ := C57_constant g hg sort hsort mode dims (m + 1, n + 1) per x y r.1 r.2 hd
    ⟨Nat.succ_le_succ (Nat.zero_le _), Nat.succ_le_succ (Nat.zero_le _)⟩ hx hy l1 l2 hc o o' h0 h srcData dstData hlen hlen' v
    hconst (C98_no_overlap m n hm hn R hR c r hc0 hc1 hr) hpos
  refine ⟨d', e, hl, fun i hi hsub => ht i hi ?_⟩
  rw [C98_covers m n hm hn R hR c r hc0 hc1 hr]
  exact hsub

end regrid

/-! ### The pole of a destination grid -/

theorem pole_hull_sorted {A B : P2} (h1 : (1 / 1000000000000 : ℝ) < A.1 ^ 2 + A.2 ^ 2)
    (h2 : (1 / 1000000000000 : ℝ) < (B.1 - A.1) ^ 2 + (B.2 - A.2) ^ 2) :
    hullArea .standard [(0 : P2), 0, A, B] = .error .outOfBounds := by
  have d0 : ¬ (eps : ℝ) < distanceSquare (0 : P2) 0 := by
    simp [eps, distanceSquare]
  have d1 : (eps : ℝ) < distanceSquare (0 : P2) A := by
    simp only [eps, distanceSquare, Prod.fst_zero, Prod.snd_zero, sub_zero, zero_add]
    push_cast
    nlinarith
  have d2 : (eps : ℝ) < distanceSquare A B := by
    simp only [eps, distanceSquare, zero_add]
    push_cast
    nlinarith
  have hm : memOf .standard [(0 : P2), 0, A, B] = { buf := [0, A, B, B], size := 3, readable := 3 } := by
    simp [memOf, removeDegenerateSegments, keepDistinct, d0, d1, d2]
  generalize hM : ({ buf := [0, A, B, B], size := 3, readable := 3 } : Mem ℝ) = M at hm
  have r0 : M.read 0 = .ok 0 := by subst hM; rfl
  have r1 : M.read 1 = .ok A := by subst hM; rfl
  have r2 : M.read 2 = .ok B := by subst hM; rfl
  have r3 : M.read 3 = .error .outOfBounds := by subst hM; rfl
  have hsz : M.size = 3 := by subst hM; rfl
  clear hM
  have rd : ∀ i < 3, ∃ p, M.read i = .ok p := by
    intro i hi
    rcases (show i = 0 ∨ i = 1 ∨ i = 2 by omega) with rfl | rfl | rfl
    · exact ⟨_, r0⟩
    · exact ⟨_, r1⟩
    · exact ⟨_, r2⟩
  have hdot : ∀ i < 3, ∀ j < 3, ∀ k < 3, ∃ v, M.dot i j k = .ok v := by
    intro i hi j hj k hk
    obtain ⟨a, ha⟩ := rd i hi
    obtain ⟨b, hb⟩ := rd j hj
    obtain ⟨c, hc⟩ := rd k hk
    exact ⟨_, by simp only [Mem.dot, ha, hb, hc, bind, Except.bind, pure, Except.pure]; rfl⟩
  have harea : ∀ i < 3, ∀ j < 3, ∀ k < 3, ∃ v, M.area i j k = .ok v := by
    intro i hi j hj k hk
    obtain ⟨a, ha⟩ := rd i hi
    obtain ⟨b, hb⟩ := rd j hj
    obtain ⟨c, hc⟩ := rd k hk
    exact ⟨_, by simp only [Mem.area, ha, hb, hc, bind, Except.bind, pure, Except.pure]; rfl⟩
  have hbad : ∀ i < 3, ∀ j < 3, M.area i j 3 = .error .outOfBounds := by
    intro i hi j hj
    obtain ⟨a, ha⟩ := rd i hi
    obtain ⟨b, hb⟩ := rd j hj
    simp only [Mem.area, ha, hb, r3, bind, Except.bind]
  have hbad' : ∀ i j, M.area 3 i j = .error .outOfBounds := by
    intro i j
    simp only [Mem.area, r3, bind, Except.bind]
  have hext : ∃ i j, i < 3 ∧ j < 3 ∧ M.extrema 0 1 2 = .ok (i, j) := by
    obtain ⟨v0, e0⟩ := hdot 0 (by omega) 1 (by omega) 2 (by omega)
    obtain ⟨v1, e1⟩ := hdot 1 (by omega) 2 (by omega) 0 (by omega)
    obtain ⟨v2, e2⟩ := hdot 2 (by omega) 0 (by omega) 1 (by omega)
    simp only [Mem.extrema, e0, e1, e2, bind, Except.bind, pure, Except.pure]
    split
    · split
      · exact ⟨0, 1, by omega, by omega, rfl⟩
      · exact ⟨2, 0, by omega, by omega, rfl⟩
    · exact ⟨1, 2, by omega, by omega, rfl⟩
  obtain ⟨v, hv⟩ := harea 0 (by omega) 1 (by omega) 2 (by omega)
  obtain ⟨i, j, hi, hj, hij⟩ := hext
  have hb : build .standard [(0 : P2), 0, A, B] = .error .outOfBounds := by
    unfold build
    simp only [hm, Mem.makeFirstTriangle, hsz, show ¬ (3 < 3) by omega, if_false, hv, bind, Except.bind]
    simp only [Mem.firstLoop]
    by_cases hlt : fabs v < (eps : ℝ)
    · simp only [hlt, if_true, hij, bind, Except.bind, hbad i hi j hj]
    · simp only [hlt, if_false, Mem.makeCounterClockwise, hv, bind, Except.bind, pure, Except.pure]
      have hscan : ∀ e es w, M.scan 3 (e :: es) w = .error .outOfBounds := by
        intro e es w
        simp only [Mem.scan, Mem.isEdgeVisible, hbad', bind, Except.bind]
      by_cases hcc : v < -(eps : ℝ) <;>
        simp [hcc, forFrom, Mem.addPoint, setInsert, lt2, hscan, bind, Except.bind]
  simp only [hullArea, hb, bind, Except.bind]

/-- A cell with two equal nodes: the corners are sorted with the pole first, one of its two entries is removed, and the
point past the end is read. -/
theorem pole_hull {A B : P2} {sorted : List P2} (hs : IsStdSort [0, A, B, 0] sorted)
    (hA : A.1 ^ 2 + A.2 ^ 2 = B.1 ^ 2 + B.2 ^ 2)
    (h1 : (1 / 1000000000000 : ℝ) < A.1 ^ 2 + A.2 ^ 2) (h2 : (1 / 1000000000000 : ℝ) < (B.1 - A.1) ^ 2 + (B.2 - A.2) ^ 2) :
    hullArea .standard sorted = .error .outOfBounds := by
  obtain ⟨hp, hw⟩ := hs
  have hlt : ∀ p, p = A ∨ p = B → sortLt [0, A, B, 0] 0 p := by
    intro p hp
    simp only [sortLt, distanceSquareFromCenter, gravityCenter, List.foldl, List.length_cons, List.length_nil, Prod.fst_zero,
      Prod.snd_zero]
    push_cast
    rcases hp with hp | hp <;> rw [hp] <;> nlinarith [sq_nonneg (A.1 - B.1), sq_nonneg (A.2 - B.2)]
  generalize hl : [(0 : P2), A, B, 0] = l0 at hp hw hlt
  rcases sorted with _ | ⟨a, t⟩
  · rw [← hl] at hp; simp at hp
  have first : ∀ (a : P2) (t : List P2), (a :: t).Pairwise (fun p q => ¬ sortLt l0 q p) → (0 : P2) ∈ a :: t →
      (a = 0 ∨ a = A ∨ a = B) → a = 0 := by
    intro a t hw h0 ha
    rcases ha with rfl | ha
    · rfl
    · rcases List.mem_cons.mp h0 with h | h
      · exact h.symm
      · exact absurd (hlt a ha) ((List.pairwise_cons.mp hw).1 0 h)
  have ha : a = 0 := by
    refine first a t hw ?_ ?_
    · rw [hp.mem_iff, ← hl]; simp
    · have : a ∈ l0 := hp.mem_iff.mp (by simp)
      rw [← hl] at this
      simp at this
      tauto
  subst ha
  have hp1 : t.Perm [A, B, 0] := by
    rw [← hl] at hp
    exact hp.cons_inv
  rcases t with _ | ⟨b, t⟩
  · simp at hp1
  have hb : b = 0 := by
    refine first b t (List.pairwise_cons.mp hw).2 ?_ ?_
    · rw [hp1.mem_iff]; simp
    · have : b ∈ [A, B, 0] := hp1.mem_iff.mp (by simp)
      simp at this
      tauto
  subst hb
  have hp2 : t.Perm [A, B] := by
    have : [A, B, (0 : P2)].Perm [0, A, B] := (List.perm_append_comm (l₁ := [A, B]) (l₂ := [(0 : P2)]))
    exact (hp1.trans this).cons_inv
  have ht : t = [A, B] ∨ t = [B, A] := by
    rcases t with _ | ⟨c, _ | ⟨d, _ | ⟨e, t⟩⟩⟩
    · simp at hp2
    · simpa using hp2.length_eq
    · have hc : c ∈ [A, B] := hp2.mem_iff.mp (by simp)
      simp only [List.mem_cons, List.not_mem_nil, or_false] at hc
      rcases hc with rfl | rfl
      · have := hp2.cons_inv
        rw [List.perm_singleton] at this
        exact .inl (by rw [this])
      · have := (hp2.trans (List.Perm.swap c A [])).cons_inv
        rw [List.perm_singleton] at this
        exact .inr (by rw [this])
    · have := hp2.length_eq
      simp at this
  rcases ht with rfl | rfl
  · exact pole_hull_sorted h1 h2
  · exact pole_hull_sorted (by rw [← hA]; exact h1) (by nlinarith)

/-- C98 is false for destination grids by the C++ standard: whatever the source grid, the triangulation of the first cell
of a polar grid reads an element removed from a vector.  The rings must be wider than the tolerance. -/
theorem C98_standard_refuted (g : Gels ℝ) (sort : List P2 → List P2) (hsort : ∀ l, IsStdSort l (sort l))
    (m n : Nat) (hm : 1 ≤ m) (hn : 3 ≤ n) (R : ℝ) (c r : List ℝ × List ℝ)
    (hc0 : (m + 1) * (n + 1) ≤ c.1.length) (hc1 : (m + 1) * (n + 1) ≤ c.2.length)
    (hr : createPolarGrid (m + 1) (n + 1) (0, 0) R c = .ok r)
    (hw : 1 / 1000000000000 < (R / m) ^ 2) (hw' : 1 / 1000000000000 < (2 * (R / m) * sin (pi / n)) ^ 2)
    (dims per : Nat × Nat) (x y : List ℝ) (hd : 1 ≤ dims.1 ∧ 1 ≤ dims.2) (hx : dims.1 * dims.2 ≤ x.length)
    (hy : dims.1 * dims.2 ≤ y.length) (o : Interp ℝ) :
    setAndCompute g sort .standard o (m + 1, n + 1) r.1 r.2 dims per x y = .error .outOfBounds := by
  obtain ⟨l1, l2⟩ := polar_lengths m n R c r hc0 hc1 hr
  obtain ⟨dst, src, -, -, h1, h2, c1, c2, q1, q2, e⟩ := setAndCompute_eq g sort .standard o (m + 1, n + 1) r.1 r.2 dims per x y
    ⟨Nat.succ_le_succ (Nat.zero_le _), Nat.succ_le_succ (Nat.zero_le _)⟩ hd l1 l2 hx hy
  rw [e]
  have hpos : 0 < dst.numCells := by
    rw [c1, polar_count]; exact Nat.mul_pos (by omega) (by omega)
  have hcell := polar_cell m n hn R c r hc0 hc1 hr 0 0 (by omega) (by omega)
  have hq : dst.cellQuad (ptAt r.1 r.2) 0 = wedgeQuad 0 (2 * pi / n) 0 (R / m) := by
    rw [q1]
    simpa using hcell
  have hA : (wedgeQuad 0 (2 * pi / n) 0 (R / m) 1) = (R / m, 0) := by simp [wedgeQuad, dir]
  have hB : (wedgeQuad 0 (2 * pi / n) 0 (R / m) 2) = (R / m * cos (2 * pi / n), R / m * sin (2 * pi / n)) := by
    simp [wedgeQuad, dir]
  have hO : wedgeQuad 0 (2 * pi / n) 0 (R / m) 0 = 0 := by simp [wedgeQuad]
  have hO' : wedgeQuad 0 (2 * pi / n) 0 (R / m) 3 = 0 := by simp [wedgeQuad]
  have hhull := pole_hull (A := (R / m, 0)) (B := (R / m * cos (2 * pi / n), R / m * sin (2 * pi / n)))
    (hsort [0, (R / m, 0), (R / m * cos (2 * pi / n), R / m * sin (2 * pi / n)), 0])
    (by have := Real.sin_sq_add_cos_sq (2 * pi / n)
        show (R / m) ^ 2 + 0 ^ 2 = (R / m * cos (2 * pi / n)) ^ 2 + (R / m * sin (2 * pi / n)) ^ 2
        linear_combination (-(R / m) ^ 2) * this)
    (by simpa using hw)
    (by have h3 : cos (2 * pi / n) = 1 - 2 * sin (pi / n) ^ 2 := by
          rw [show 2 * pi / n = 2 * (pi / n) by ring, Real.cos_two_mul, Real.cos_sq']; ring
        have h4 := Real.sin_sq_add_cos_sq (2 * pi / n)
        refine hw'.trans_eq ?_
        show (2 * (R / m) * sin (pi / n)) ^ 2 = (R / m * cos (2 * pi / n) - R / m) ^ 2 + (R / m * sin (2 * pi / n) - 0) ^ 2
        linear_combination (-(R / m) ^ 2) * h4 + 2 * (R / m) ^ 2 * h3)
  unfold Interp.computeWeights
  simp only
  obtain ⟨k, hk⟩ := Nat.exists_eq_succ_of_ne_zero hpos.ne'
  have hstep : ∀ s, dstStep g sort .standard src dst 0 s = .error .outOfBounds := by
    intro s
    unfold dstStep
    rw [dst.quadCoord_ok _ h1 hpos, hq]
    simp only [bind, Except.bind, hA, hB, hO, hO', hhull]
  rw [hk]
  simp only [forN, forFrom, hstep, bind, Except.bind]

/-! ### A grid that meets the hypotheses: one ring of four sectors, and a square around it -/

/-- The polar grid of radius 4 with 2 times 5 nodes. -/
theorem ex_polar : ∃ r, createPolarGrid 2 5 (0, 0) (4 : ℝ) (List.replicate 10 0, List.replicate 10 0) = .ok r := by
  obtain ⟨r, h, -⟩ := C25_polar_partial 2 5 (by omega) (by omega) 4 (List.replicate 10 0, List.replicate 10 0) (by simp) (by simp)
  exact ⟨r, h⟩

def exBx : List ℝ := [-5, -5, 5, 5]
def exBy : List ℝ := [-5, 5, -5, 5]

/-- The corners of the sectors and of the square, moved by (5, 5). -/
def exPz (j : Nat) : Fin 4 → ℤ × ℤ :=
  if j = 0 then ![(5, 5), (9, 5), (5, 9), (5, 5)] else if j = 1 then ![(5, 5), (5, 9), (1, 5), (5, 5)]
  else if j = 2 then ![(5, 5), (1, 5), (5, 1), (5, 5)] else ![(5, 5), (5, 1), (9, 5), (5, 5)]

def exBz : Fin 4 → ℤ × ℤ := ![(0, 0), (10, 0), (10, 10), (0, 10)]

/-- The translation by (-5, -5). -/
def exPolShift : AffineMap2 := ⟨1, 0, 0, 1, -5, -5⟩

theorem exPolShift_rigid : exPolShift.Rigid := ⟨by norm_num [exPolShift], by norm_num [exPolShift], by norm_num [exPolShift]⟩

theorem ex_box_cell : gridCell (2, 2) exBx exBy 0 = fun k => exPolShift.app (zquad exBz k) := by
  funext k
  fin_cases k <;> simp [gridCell, gridCellAt, gridNode, exBx, exBy, zquad, exBz, exPolShift, AffineMap2.app] <;> norm_num

theorem ex_dir0 : dir 0 = (1, 0) := by simp [dir]
theorem ex_dir1 : dir (2 * pi / 4) = (0, 1) := by
  simp [dir, show 2 * pi / 4 = pi / 2 by ring]
theorem ex_dir2 : dir (2 * pi / 4 * 2) = (-1, 0) := by
  simp [dir, show 2 * pi / 4 * 2 = pi by ring]
theorem ex_dir3 : dir (2 * pi / 4 * 3) = (0, -1) := by
  simp [dir, show 2 * pi / 4 * 3 = pi + pi / 2 by ring, Real.cos_add, Real.sin_add]
theorem ex_dir4 : dir (2 * pi / 4 * 4) = (1, 0) := by
  simp [dir, show 2 * pi / 4 * 4 = 2 * pi by ring]

theorem ex_wedge {α δ : ℝ} {a b : P2} (h1 : dir α = a) (h2 : dir (α + δ) = b) :
    wedgeQuad α δ 0 4 = ![(0, 0), (4 * a.1, 4 * a.2), (4 * b.1, 4 * b.2), (0, 0)] := by
  funext k
  fin_cases k
  · simp [wedgeQuad]; rfl
  · simp [wedgeQuad, h1]; rfl
  · simp [wedgeQuad, h2]; rfl
  · simp [wedgeQuad]; rfl

theorem ex_polar_cell (r : List ℝ × List ℝ)
    (hr : createPolarGrid 2 5 (0, 0) (4 : ℝ) (List.replicate 10 0, List.replicate 10 0) = .ok r) (j : Nat) (hj : j < 4) :
    gridCell (2, 5) r.1 r.2 j = fun k => exPolShift.app (zquad (exPz j) k) := by
  have h := polar_cell 1 4 (by omega) 4 _ r (by simp) (by simp) hr 0 j (by omega) hj
  simp only [Nat.zero_mul, Nat.zero_add, Nat.cast_zero, mul_zero, zero_add, Nat.cast_one, mul_one, div_one, Nat.cast_ofNat] at h
  rw [h]
  rcases (show j = 0 ∨ j = 1 ∨ j = 2 ∨ j = 3 by omega) with rfl | rfl | rfl | rfl
  · rw [ex_wedge (a := (1, 0)) (b := (0, 1)) (by rw [← ex_dir0]; congr 1; push_cast; ring)
      (by rw [← ex_dir1]; congr 1; push_cast; ring)]
    funext k
    fin_cases k <;> simp [zquad, exPz, exPolShift, AffineMap2.app] <;> norm_num
  · rw [ex_wedge (a := (0, 1)) (b := (-1, 0)) (by rw [← ex_dir1]; congr 1; push_cast; ring)
      (by rw [← ex_dir2]; congr 1; push_cast; ring)]
    funext k
    fin_cases k <;> simp [zquad, exPz, exPolShift, AffineMap2.app] <;> norm_num
  · rw [ex_wedge (a := (-1, 0)) (b := (0, -1)) (by rw [← ex_dir2]; congr 1)
      (by rw [← ex_dir3]; congr 1; push_cast; ring)]
    funext k
    fin_cases k <;> simp [zquad, exPz, exPolShift, AffineMap2.app] <;> norm_num
  · rw [ex_wedge (a := (0, -1)) (b := (1, 0)) (by rw [← ex_dir3]; congr 1)
      (by rw [← ex_dir4]; congr 1; push_cast; ring)]
    funext k
    fin_cases k <;> simp [zquad, exPz, exPolShift, AffineMap2.app] <;> norm_num

theorem ex_box_count (i : Nat) (hi : i < cellCount (2, 2)) : i = 0 := by
  simp [cellCount] at hi
  exact hi

/-- The square and the sectors, in both directions, meet the conditions on tolerances. -/
theorem ex_polar_clean (r : List ℝ × List ℝ)
    (hr : createPolarGrid 2 5 (0, 0) (4 : ℝ) (List.replicate 10 0, List.replicate 10 0) = .ok r) :
    ∀ i < cellCount (2, 5), ∀ j < cellCount (2, 2),
      CleanCells (gridCell (2, 5) r.1 r.2 i) (gridCell (2, 2) exBx exBy j) ∧
      CleanCells (gridCell (2, 2) exBx exBy j) (gridCell (2, 5) r.1 r.2 i) := by
  intro i hi j hj
  rw [ex_box_count j hj, ex_box_cell, ex_polar_cell r hr i (by simpa [cellCount] using hi)]
  constructor
  · refine cleanCells_image _ exPolShift_rigid _ _ ?_
    unfold exPz
    split
    · exact cleanCells_int (by decide) (by decide) (by decide) (by decide)
    · split
      · exact cleanCells_int (by decide) (by decide) (by decide) (by decide)
      · split <;> exact cleanCells_int (by decide) (by decide) (by decide) (by decide)
  · refine cleanCells_image _ exPolShift_rigid _ _ ?_
    unfold exPz
    split
    · exact cleanCells_int (by decide) (by decide) (by decide) (by decide)
    · split
      · exact cleanCells_int (by decide) (by decide) (by decide) (by decide)
      · split <;> exact cleanCells_int (by decide) (by decide) (by decide) (by decide)

theorem interior_of_convex {q : Fin 4 → P2} (h : ConvexQuad q) : (interior (quadRegion q)).Nonempty := by
  by_contra hne
  rw [Set.not_nonempty_iff_eq_empty] at hne
  have h1 : frontier (quadRegion q) = quadRegion q := by
    rw [(isCompact_region q).isClosed.frontier_eq, hne, Set.diff_empty]
  have h2 := (convex_convexHull ℝ (Set.range q)).addHaar_frontier volume
  have h3 : volume (quadRegion q) = 0 := by rw [← h1]; exact h2
  have := area_pos h
  rw [area, h3] at this
  simp at this

theorem ex_box_region : quadRegion (gridCell (2, 2) exBx exBy 0) = Set.Icc (-5 : ℝ) 5 ×ˢ Set.Icc (-5 : ℝ) 5 :=
  box_region (by norm_num) (by norm_num) (by simp [gridCell, gridCellAt, gridNode, exBx, exBy])
    (by simp [gridCell, gridCellAt, gridNode, exBx, exBy]) (by simp [gridCell, gridCellAt, gridNode, exBx, exBy])
    (by simp [gridCell, gridCellAt, gridNode, exBx, exBy])

theorem ex_polar_inside (r : List ℝ × List ℝ)
    (hr : createPolarGrid 2 5 (0, 0) (4 : ℝ) (List.replicate 10 0, List.replicate 10 0) = .ok r) (i : Nat)
    (hi : i < cellCount (2, 5)) : quadRegion (gridCell (2, 5) r.1 r.2 i) ⊆ quadRegion (gridCell (2, 2) exBx exBy 0) := by
  rw [ex_box_region]
  refine convexHull_min ?_ (Convex.prod (convex_Icc (-5 : ℝ) 5) (convex_Icc (-5 : ℝ) 5))
  rw [ex_polar_cell r hr i (by simpa [cellCount] using hi)]
  rintro _ ⟨k, rfl⟩
  have hz : ∀ k, 0 ≤ (exPz i k).1 ∧ (exPz i k).1 ≤ 10 ∧ 0 ≤ (exPz i k).2 ∧ (exPz i k).2 ≤ 10 := by
    unfold exPz
    split
    · decide
    · split
      · decide
      · split <;> decide
  obtain ⟨a, b, c, d⟩ := hz k
  have a' : (0 : ℝ) ≤ (exPz i k).1 := by exact_mod_cast a
  have b' : ((exPz i k).1 : ℝ) ≤ 10 := by exact_mod_cast b
  have c' : (0 : ℝ) ≤ (exPz i k).2 := by exact_mod_cast c
  have d' : ((exPz i k).2 : ℝ) ≤ 10 := by exact_mod_cast d
  simp only [exPolShift, AffineMap2.app, zquad, Set.mem_prod, Set.mem_Icc]
  refine ⟨⟨?_, ?_⟩, ?_, ?_⟩ <;> linarith

/-- Weights to the polar grid can be computed, if removed elements can still be read. -/
theorem ex_to_polar_run (r : List ℝ × List ℝ)
    (hr : createPolarGrid 2 5 (0, 0) (4 : ℝ) (List.replicate 10 0, List.replicate 10 0) = .ok r) :
    ∃ o o' : Interp ℝ, o.weights = [] ∧
      setAndCompute refGels stdSort .keptBuffer o (2, 5) r.1 r.2 (2, 2) (0, 0) exBx exBy = .ok o' := by
  obtain ⟨l1, l2⟩ := polar_lengths 1 4 4 _ r (by simp) (by simp) hr
  obtain ⟨o', h⟩ := C65_safe_partial refGels refGels_contract stdSort stdSort_ok (2, 5) (2, 2) (0, 0) r.1 r.2 exBx exBy
    (by decide) (by decide) l1 l2 (by decide) (by decide) (fun i hi j hj => (ex_polar_clean r hr i hi j hj).1)
    { src := none, dst := none, weights := [], it := none, it2 := none }
    (fun i hi j hj => by
      left
      rw [ex_box_count j hj, Set.inter_eq_left.mpr (ex_polar_inside r hr i hi)]
      exact interior_of_convex (C98_convex 1 4 (by omega) (by omega) 4 (by norm_num) _ r (by simp) (by simp) hr i hi).1) (by decide)
  exact ⟨_, o', rfl, h⟩

/-- Weights from the polar grid can be computed. -/
theorem ex_from_polar_run (r : List ℝ × List ℝ)
    (hr : createPolarGrid 2 5 (0, 0) (4 : ℝ) (List.replicate 10 0, List.replicate 10 0) = .ok r) :
    ∃ o o' : Interp ℝ, o.weights = [] ∧
      setAndCompute refGels stdSort .keptBuffer o (2, 2) exBx exBy (2, 5) (0, 0) r.1 r.2 = .ok o' := by
  obtain ⟨l1, l2⟩ := polar_lengths 1 4 4 _ r (by simp) (by simp) hr
  obtain ⟨o', h⟩ := C65_safe_partial refGels refGels_contract stdSort stdSort_ok (2, 2) (2, 5) (0, 0) exBx exBy r.1 r.2
    (by decide) (by decide) (by decide) (by decide) l1 l2 (fun i hi j hj => (ex_polar_clean r hr j hj i hi).2)
    { src := none, dst := none, weights := [], it := none, it2 := none }
    (fun i hi j hj => by
      left
      rw [ex_box_count i hi, Set.inter_eq_right.mpr (ex_polar_inside r hr j hj)]
      exact interior_of_convex (C98_convex 1 4 (by omega) (by omega) 4 (by norm_num) _ r (by simp) (by simp) hr j hj).1) (by decide)
  exact ⟨_, o', rfl, h⟩

/-- C98: the value 3 on the square becomes a total of 96 on the four sectors, 3 times the area 32 of the polygon. -/
example : ∃ (o' : Interp ℝ) (d' : List ℝ), o'.apply [3] [0, 0, 0, 0] = .ok d' ∧
    8 * d'.getD 0 0 + 8 * d'.getD 1 0 + 8 * d'.getD 2 0 + 8 * d'.getD 3 0 = 96 := by
  obtain ⟨r, hr⟩ := ex_polar
  obtain ⟨o, o', h0, h⟩ := ex_to_polar_run r hr
  obtain ⟨d', e, -, ht⟩ := C98_to_polar_partial refGels refGels_contract stdSort stdSort_ok .keptBuffer 1 4 (by omega) (by omega) 4
    (by norm_num) _ r (by simp) (by simp) hr (2, 2) (0, 0) exBx exBy (by decide) (by decide) (by decide)
    (fun i hi j hj => (ex_polar_clean r hr i hi j hj).1) o o' h0 h [3] [0, 0, 0, 0] (by decide) (by decide) (by decide)
    (by intro i hi; rcases (show i = 0 ∨ i = 1 ∨ i = 2 ∨ i = 3 by omega) with rfl | rfl | rfl | rfl <;> rfl)
  refine ⟨o', d', e, ?_⟩
  have hs : sin (2 * pi / 4) = 1 := by rw [show 2 * pi / 4 = pi / 2 by ring, Real.sin_pi_div_two]
  have harea := (C98_area_sum 1 4 (by omega) (by omega) 4 (by norm_num) _ r (by simp) (by simp) hr).2
  have hcov := C98_covers 1 4 (by omega) (by omega) 4 (by norm_num) _ r (by simp) (by simp) hr
  have hin : quadRegion (gridCell (2, 2) exBx exBy 0) ∩ regularPolygon 4 4 = regularPolygon 4 4 := by
    apply Set.inter_eq_right.mpr
    rw [← hcov]
    exact Set.iUnion₂_subset fun i hi => ex_polar_inside r hr i (Finset.mem_range.mp hi)
  rw [show cellCount (2, 2) = 1 from rfl, Finset.sum_range_one, Finset.sum_range_one, hin, harea] at ht
  simp only [Finset.sum_range_one, Finset.sum_range_succ, Finset.range_zero, Finset.sum_empty] at ht
  push_cast at ht
  rw [hs] at ht
  simp at ht
  norm_num at ht ⊢
  linarith

/-- C98: values 1, 2, 3, 4 on the four sectors give the total 80 on the square, whose area is 100. -/
example : ∃ (o' : Interp ℝ) (d' : List ℝ), o'.apply [1, 2, 3, 4] [0] = .ok d' ∧ 100 * d'.getD 0 0 = 80 := by
  obtain ⟨r, hr⟩ := ex_polar
  obtain ⟨o, o', h0, h⟩ := ex_from_polar_run r hr
  have hcov := C98_covers 1 4 (by omega) (by omega) 4 (by norm_num) _ r (by simp) (by simp) hr
  obtain ⟨d', e, -, ht⟩ := C98_from_polar refGels refGels_contract stdSort stdSort_ok .keptBuffer 1 4 (by omega) (by omega) 4
    (by norm_num) _ r (by simp) (by simp) hr (2, 2) (0, 0) exBx exBy (by decide) (by decide) (by decide)
    (fun i hi j hj => (ex_polar_clean r hr j hj i hi).2) o o' h0 h [1, 2, 3, 4] [0] (by decide) (by decide)
    (by intro i hi j hj hne; exact absurd ((ex_box_count i hi).trans (ex_box_count j hj).symm) hne)
    (by rw [← hcov]
        refine Set.iUnion₂_subset fun i hi => (ex_polar_inside r hr i (Finset.mem_range.mp hi)).trans ?_
        exact Set.subset_biUnion_of_mem (u := fun i => quadRegion (gridCell (2, 2) exBx exBy i)) (Finset.mem_range.mpr (by decide)))
    (by intro i hi; rw [ex_box_count i hi]; rfl)
  refine ⟨o', d', e, ?_⟩
  have hs : sin (2 * pi / 4) = 1 := by rw [show 2 * pi / 4 = pi / 2 by ring, Real.sin_pi_div_two]
  rw [show cellCount (2, 2) = 1 from rfl, Finset.sum_range_one,
    ex_box_region, area_box (by norm_num) (by norm_num)] at ht
  simp only [Finset.sum_range_one, Finset.sum_range_succ, Finset.range_zero, Finset.sum_empty] at ht
  push_cast at ht
  rw [hs] at ht
  simp at ht
  norm_num at ht ⊢
  linarith

/-- C98_standard_refuted: this grid as destination. -/
example : ∃ r, createPolarGrid 2 5 (0, 0) (4 : ℝ) (List.replicate 10 0, List.replicate 10 0) = .ok r ∧
    setAndCompute refGels stdSort .standard { src := none, dst := none, weights := [], it := none, it2 := none }
      (2, 5) r.1 r.2 (2, 2) (0, 0) exBx exBy = .error .outOfBounds := by
  obtain ⟨r, hr⟩ := ex_polar
  refine ⟨r, hr, C98_standard_refuted refGels stdSort stdSort_ok 1 4 (by omega) (by omega) 4 _ r (by simp) (by simp) hr
    (by norm_num) ?_ (2, 2) (0, 0) exBx exBy (by decide) (by decide) (by decide) _⟩
  push_cast
  rw [Real.sin_pi_div_four, mul_pow, div_pow, Real.sq_sqrt (by norm_num)]
  norm_num

end Sg.Props
