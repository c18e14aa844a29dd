import Verif.Props.ConserveExamples
import Verif.Proof.AffineInv
/-
Property C84: what the weights of conservative interpolation depend on.
-/
namespace Sg.Props
open Sg.LinearSolve Sg.Triangulate Sg.QuadIntersect Sg.Conserve Sg.Spec Sg.Plane Sg.Witness MeasureTheory

/-- What is assumed of a pair of grids: the arrays are long enough, the cells convex and no decision closer than the
tolerance. -/
structure CleanGrids (ddims : Nat × Nat) (dx dy : List ℝ) (sdims : Nat × Nat) (sx sy : List ℝ) : Prop where
  hd : 1 ≤ ddims.1 ∧ 1 ≤ ddims.2
  hs : 1 ≤ sdims.1 ∧ 1 ≤ sdims.2
  hdx : ddims.1 * ddims.2 ≤ dx.length
  hdy : ddims.1 * ddims.2 ≤ dy.length
  hsx : sdims.1 * sdims.2 ≤ sx.length
  hsy : sdims.1 * sdims.2 ≤ sy.length
  cells : ∀ i < cellCount ddims, ∀ j < cellCount sdims, CleanCells (gridCell ddims dx dy i) (gridCell sdims sx sy j)

/-- The weights that a user obtains for two grids from an object without weights. -/
def WeightsOf (ddims : Nat × Nat) (dx dy : List ℝ) (sdims : Nat × Nat) (sx sy : List ℝ) (w : Nat → Nat → ℝ) : Prop :=
  ∃ (g : Gels ℝ) (sort : List P2 → List P2) (mode : Mode) (per : Nat × Nat) (o o' : Interp ℝ),
    GelsContract g ∧ (∀ l, IsStdSort l (sort l)) ∧ o.weights = [] ∧
    setAndCompute g sort mode o ddims dx dy sdims per sx sy = .ok o' ∧ w = weightOf o'.weights

theorem weights_fraction {ddims : Nat × Nat} {dx dy : List ℝ} {sdims : Nat × Nat} {sx sy : List ℝ} {w : Nat → Nat → ℝ}
    (hc : CleanGrids ddims dx dy sdims sx sy) (hw : WeightsOf ddims dx dy sdims sx sy w) (i j : Nat)
    (hi : i < cellCount ddims) (hj : j < cellCount sdims) :
    w i j = overlapFraction (gridCell ddims dx dy i) (gridCell sdims sx sy j) := by
  obtain ⟨g, sort, mode, per, o, o', hg, hsort, h0, h, rfl⟩ := hw
  exact C56_weight g hg sort hsort mode ddims sdims per dx dy sx sy hc.hd hc.hs hc.hdx hc.hdy hc.hsx hc.hsy hc.cells o o' h0 h
    i hi j hj

/-- **C84** The weight of a pair of cells depends on the regions of the two cells only: not on the numbering of cells and
nodes, the other cells of the grids, the linear algebra library, the order in which equal points are sorted, the
periodicity arguments. -/
theorem C84_regions {ddims ddims' : Nat × Nat} {dx dy dx' dy' : List ℝ} {sdims sdims' : Nat × Nat} {sx sy sx' sy' : List ℝ}
    {w w' : Nat → Nat → ℝ}
    (hc : CleanGrids ddims dx dy sdims sx sy) (hw : WeightsOf ddims dx dy sdims sx sy w)
    (hc' : CleanGrids ddims' dx' dy' sdims' sx' sy') (hw' : WeightsOf ddims' dx' dy' sdims' sx' sy' w')
    (i i' j j' : Nat) (hi : i < cellCount ddims) (hi' : i' < cellCount ddims') (hj : j < cellCount sdims)
    (hj' : j' < cellCount sdims')
    (hd : quadRegion (gridCell ddims' dx' dy' i') = quadRegion (gridCell ddims dx dy i))
    (hs : quadRegion (gridCell sdims' sx' sy' j') = quadRegion (gridCell sdims sx sy j)) : w' i' j' = w i j := by
  rw [weights_fraction hc hw i j hi hj, weights_fraction hc' hw' i' j' hi' hj', overlapFraction, overlapFraction, hd, hs]

/-- The nodes of a cell are nodes of the grid. -/
theorem cell_node_lt (dims : Nat × Nat) (i : Nat) (hi : i < cellCount dims) (a b : Nat) (ha : a ≤ 1) (hb : b ≤ 1) :
    (i / (dims.2 - 1) + a) * dims.2 + (i % (dims.2 - 1) + b) < dims.1 * dims.2 := by
  unfold cellCount at hi
  have h2 : 0 < dims.2 - 1 := by
    rcases Nat.eq_zero_or_pos (dims.2 - 1) with h | h
    · rw [h] at hi; simp at hi
    · exact h
  have h1 : i / (dims.2 - 1) < dims.1 - 1 := Nat.div_lt_of_lt_mul (by rw [Nat.mul_comm]; exact hi)
  have h3 : i % (dims.2 - 1) < dims.2 - 1 := Nat.mod_lt _ h2
  generalize i / (dims.2 - 1) = u at h1 ⊢
  generalize i % (dims.2 - 1) = v at h3 ⊢
  calc (u + a) * dims.2 + (v + b) < (u + a) * dims.2 + dims.2 := Nat.add_lt_add_left (by omega) _
    _ = (u + a + 1) * dims.2 := by ring
    _ ≤ dims.1 * dims.2 := Nat.mul_le_mul_right _ (by omega)

theorem cell_image (φ : AffineMap2) (dims : Nat × Nat) (x y x' y' : List ℝ) (h : MapsNodes φ (dims.1 * dims.2) x y x' y')
    (i : Nat) (hi : i < cellCount dims) : gridCell dims x' y' i = fun k => φ.app (gridCell dims x y i k) := by
  funext k
  have h00 := h _ (cell_node_lt dims i hi 0 0 (by omega) (by omega))
  have h10 := h _ (cell_node_lt dims i hi 1 0 (by omega) (by omega))
  have h11 := h _ (cell_node_lt dims i hi 1 1 (by omega) (by omega))
  have h01 := h _ (cell_node_lt dims i hi 0 1 (by omega) (by omega))
  fin_cases k
  · exact h00
  · exact h10
  · exact h11
  · exact h01

/-- **C84** The weights do not change if both grids are mapped by an invertible affine map (shear, change of units, ...),
as long as the cells of both pairs of grids keep clear of the tolerances. -/
theorem C84_affine (φ : AffineMap2) (hφ : φ.det ≠ 0) {ddims : Nat × Nat} {dx dy dx' dy' : List ℝ} {sdims : Nat × Nat}
    {sx sy sx' sy' : List ℝ} {w w' : Nat → Nat → ℝ}
    (hc : CleanGrids ddims dx dy sdims sx sy) (hw : WeightsOf ddims dx dy sdims sx sy w)
    (hc' : CleanGrids ddims dx' dy' sdims sx' sy') (hw' : WeightsOf ddims dx' dy' sdims sx' sy' w')
    (hd : MapsNodes φ (ddims.1 * ddims.2) dx dy dx' dy') (hs : MapsNodes φ (sdims.1 * sdims.2) sx sy sx' sy')
    (i j : Nat) (hi : i < cellCount ddims) (hj : j < cellCount sdims) : w' i j = w i j := by
  rw [weights_fraction hc hw i j hi hj, weights_fraction hc' hw' i j hi hj, cell_image φ ddims dx dy dx' dy' hd i hi,
    cell_image φ sdims sx sy sx' sy' hs j hj, overlap_image φ hφ]

/-- **C84** Translations, rotations and reflections of both grids do not change the weights; the mapped grids keep clear
of the tolerances if the grids do. -/
theorem C84_rigid (φ : AffineMap2) (hφ : φ.Rigid) {ddims : Nat × Nat} {dx dy dx' dy' : List ℝ} {sdims : Nat × Nat}
    {sx sy sx' sy' : List ℝ} {w w' : Nat → Nat → ℝ}
    (hc : CleanGrids ddims dx dy sdims sx sy) (hw : WeightsOf ddims dx dy sdims sx sy w)
    (hlx : dx'.length = dx.length) (hly : dy'.length = dy.length) (hlx' : sx'.length = sx.length) (hly' : sy'.length = sy.length)
    (hw' : WeightsOf ddims dx' dy' sdims sx' sy' w')
    (hd : MapsNodes φ (ddims.1 * ddims.2) dx dy dx' dy') (hs : MapsNodes φ (sdims.1 * sdims.2) sx sy sx' sy')
    (i j : Nat) (hi : i < cellCount ddims) (hj : j < cellCount sdims) : w' i j = w i j := by
  refine C84_affine φ (rigid_ne φ hφ) hc hw ⟨hc.hd, hc.hs, by rw [hlx]; exact hc.hdx, by rw [hly]; exact hc.hdy,
    by rw [hlx']; exact hc.hsx, by rw [hly']; exact hc.hsy, ?_⟩ hw' hd hs i j hi hj
  intro i hi j hj
  rw [cell_image φ ddims dx dy dx' dy' hd i hi, cell_image φ sdims sx sy sx' sy' hs j hj]
  exact cleanCells_image φ hφ _ _ (hc.cells i hi j hj)

/-- The arrays `x'`, `y'` hold the nodes of the grid with the two axes exchanged. -/
def TransposesNodes (dims : Nat × Nat) (x y x' y' : List ℝ) : Prop :=
  ∀ a < dims.1, ∀ b < dims.2, gridNode (dims.2, dims.1) x' y' b a = gridNode dims x y a b

theorem region_transposed (dims : Nat × Nat) (x y x' y' : List ℝ) (h : TransposesNodes dims x y x' y') (a b : Nat)
    (ha : a + 1 < dims.1) (hb : b + 1 < dims.2) :
    quadRegion (gridCell (dims.2, dims.1) x' y' (b * (dims.1 - 1) + a)) = quadRegion (gridCell dims x y (a * (dims.2 - 1) + b)) := by
  have e1 : ∀ (u v m : Nat), v < m → (u * m + v) / m = u ∧ (u * m + v) % m = v := by
    intro u v m hv
    constructor
    · rw [Nat.add_comm, Nat.add_mul_div_right _ _ (by omega), Nat.div_eq_of_lt hv, Nat.zero_add]
    · rw [Nat.add_comm, Nat.add_mul_mod_self_right, Nat.mod_eq_of_lt hv]
  have hr : Set.range (gridCell (dims.2, dims.1) x' y' (b * (dims.1 - 1) + a)) =
      Set.range (gridCell dims x y (a * (dims.2 - 1) + b)) := by
    unfold gridCell
    rw [(e1 b a (dims.1 - 1) (by omega)).1, (e1 b a (dims.1 - 1) (by omega)).2, (e1 a b (dims.2 - 1) (by omega)).1,
      (e1 a b (dims.2 - 1) (by omega)).2]
    have k0 := h a (by omega) b (by omega)
    have k1 := h (a + 1) (by omega) b (by omega)
    have k2 := h (a + 1) (by omega) (b + 1) (by omega)
    have k3 := h a (by omega) (b + 1) (by omega)
    ext p
    constructor
    · rintro ⟨k, rfl⟩
      fin_cases k
      · exact ⟨0, k0.symm⟩
      · exact ⟨3, k3.symm⟩
      · exact ⟨2, k2.symm⟩
      · exact ⟨1, k1.symm⟩
    · rintro ⟨k, rfl⟩
      fin_cases k
      · exact ⟨0, k0⟩
      · exact ⟨3, k1⟩
      · exact ⟨2, k2⟩
      · exact ⟨1, k3⟩
  unfold quadRegion
  rw [hr]

theorem cell_lt (dims : Nat × Nat) (a b : Nat) (ha : a + 1 < dims.1) (hb : b + 1 < dims.2) :
    a * (dims.2 - 1) + b < cellCount dims := by
  unfold cellCount
  calc a * (dims.2 - 1) + b < a * (dims.2 - 1) + (dims.2 - 1) := by omega
    _ = (a + 1) * (dims.2 - 1) := by ring
    _ ≤ _ := Nat.mul_le_mul_right _ (by omega)

/-- **C84** Exchanging the two axes of the destination grid exchanges the cell indices and nothing else. -/
theorem C84_transposed {ddims : Nat × Nat} {dx dy dx' dy' : List ℝ} {sdims : Nat × Nat} {sx sy : List ℝ}
    {w w' : Nat → Nat → ℝ}
    (hc : CleanGrids ddims dx dy sdims sx sy) (hw : WeightsOf ddims dx dy sdims sx sy w)
    (hc' : CleanGrids (ddims.2, ddims.1) dx' dy' sdims sx sy) (hw' : WeightsOf (ddims.2, ddims.1) dx' dy' sdims sx sy w')
    (h : TransposesNodes ddims dx dy dx' dy') (a b j : Nat) (ha : a + 1 < ddims.1) (hb : b + 1 < ddims.2)
    (hj : j < cellCount sdims) : w' (b * (ddims.1 - 1) + a) j = w (a * (ddims.2 - 1) + b) j :=
  C84_regions hc hw hc' hw' _ _ j j (cell_lt ddims a b ha hb) (cell_lt (ddims.2, ddims.1) b a hb ha) hj hj
    (region_transposed ddims dx dy dx' dy' h a b ha hb) rfl

/-! ### The unit of length -/

/-- **C84 is false** for changes of the unit of length: the tolerances are absolute.  The squares [0,2]² and
[17/10,37/10] x [0,2] give the weight 3/20; with all coordinates written in a unit a million times larger, computing the
weight reads outside of an array. -/
theorem C84_unit_refuted : ∃ (g : Gels ℚ) (sort : List (Pt ℚ) → List (Pt ℚ)) (o o1 : Interp ℚ),
    GelsContract g ∧ (∀ l, IsStdSort l (sort l)) ∧ Conserve.new .lenient = .ok o ∧
    setAndCompute g sort .keptBuffer o (2, 2) [0, 0, 2, 2] [0, 2, 0, 2] (2, 2) (0, 0) [17/10, 17/10, 37/10, 37/10]
      [0, 2, 0, 2] = .ok o1 ∧ weightOf o1.weights 0 0 = 3/20 ∧
    setAndCompute g sort .keptBuffer o (2, 2) [0, 0, 2/1000000, 2/1000000] [0, 2/1000000, 0, 2/1000000] (2, 2) (0, 0)
      [17/10000000, 17/10000000, 37/10000000, 37/10000000] [0, 2/1000000, 0, 2/1000000] = .error .outOfBounds := by
  refine ⟨cramerGels, stdSort, { src := none, dst := none, weights := [], it := none, it2 := none },
    { src := some ⟨(2, 2), [17/10, 0, 17/10, 2, 37/10, 0, 37/10, 2]⟩, dst := some ⟨(2, 2), [0, 0, 0, 2, 2, 0, 2, 2]⟩,
      weights := [(0, [(0, 3/20)])], it := none, it2 := none },
    cramerGels_contract, stdSort_ok, rfl, ?_, ?_, ?_⟩ <;> decide +kernel

/-! ### A case that meets the hypotheses: the example grids, moved by (1, 2) -/

def exShift : AffineMap2 := ⟨1, 0, 0, 1, 1, 2⟩
def exDx' : List ℝ := [1, 1, 2, 2, 5, 5]
def exDy' : List ℝ := [2, 6, 2, 6, 2, 6]
def exSx' : List ℝ := [1, 1, 1, 5, 5, 5]
def exSy' : List ℝ := [2, 3, 6, 2, 3, 6]

theorem exShift_rigid : exShift.Rigid := by
  constructor <;> norm_num [exShift]

theorem ex_grids : CleanGrids (3, 2) exDx exDy (2, 3) exSx exSy :=
  ⟨by decide, by decide, by decide, by decide, by decide, by decide, ex_clean⟩

theorem ex_weights : ∃ w, WeightsOf (3, 2) exDx exDy (2, 3) exSx exSy w := by
  obtain ⟨o, o', -, h0, h⟩ := ex_run
  exact ⟨_, refGels, stdSort, .keptBuffer, (0, 0), o, o', refGels_contract, stdSort_ok, h0, h, rfl⟩

theorem exD_moved : MapsNodes exShift (3 * 2) exDx exDy exDx' exDy' := by
  intro k hk
  interval_cases k <;> simp [exShift, AffineMap2.app, exDx, exDy, exDx', exDy'] <;> norm_num

theorem exS_moved : MapsNodes exShift (2 * 3) exSx exSy exSx' exSy' := by
  intro k hk
  interval_cases k <;> simp [exShift, AffineMap2.app, exSx, exSy, exSx', exSy'] <;> norm_num

theorem ex_grids' : CleanGrids (3, 2) exDx' exDy' (2, 3) exSx' exSy' := by
  refine ⟨by decide, by decide, by decide, by decide, by decide, by decide, ?_⟩
  intro i hi j hj
  rw [cell_image exShift (3, 2) exDx exDy exDx' exDy' exD_moved i hi,
    cell_image exShift (2, 3) exSx exSy exSx' exSy' exS_moved j hj]
  exact cleanCells_image exShift exShift_rigid _ _ (ex_clean i hi j hj)

theorem ex_over' : ∀ i < cellCount (3, 2), ∀ j < cellCount (2, 3),
    (interior (quadRegion (gridCell (3, 2) exDx' exDy' i) ∩ quadRegion (gridCell (2, 3) exSx' exSy' j))).Nonempty ∨
    (quadRegion (gridCell (3, 2) exDx' exDy' i) ∩ quadRegion (gridCell (2, 3) exSx' exSy' j)).Subsingleton := by
  intro i hi j hj
  left
  have hd : gridCell (3, 2) exDx' exDy' i = zquad (if i = 0 then exZ 1 2 2 6 else exZ 2 5 2 6) := by
    rcases (show i = 0 ∨ i = 1 by simp [cellCount] at hi; omega) with rfl | rfl <;>
    · funext k
      fin_cases k <;> simp [gridCell, gridCellAt, gridNode, exDx', exDy', zquad, exZ]
  have hs : gridCell (2, 3) exSx' exSy' j = zquad (if j = 0 then exZ 1 5 2 3 else exZ 1 5 3 6) := by
    rcases (show j = 0 ∨ j = 1 by simp [cellCount] at hj; omega) with rfl | rfl <;>
    · funext k
      fin_cases k <;> simp [gridCell, gridCellAt, gridNode, exSx', exSy', zquad, exZ]
  rw [hd, hs]
  split <;> split
  · rw [ex_box (by decide) (by decide), ex_box (by decide) (by decide), ex_inter, interior_prod_eq, interior_Icc, interior_Icc]
    exact ⟨(3/2, 5/2), by norm_num⟩
  · rw [ex_box (by decide) (by decide), ex_box (by decide) (by decide), ex_inter, interior_prod_eq, interior_Icc, interior_Icc]
    exact ⟨(3/2, 4), by norm_num⟩
  · rw [ex_box (by decide) (by decide), ex_box (by decide) (by decide), ex_inter, interior_prod_eq, interior_Icc, interior_Icc]
    exact ⟨(3, 5/2), by norm_num⟩
  · rw [ex_box (by decide) (by decide), ex_box (by decide) (by decide), ex_inter, interior_prod_eq, interior_Icc, interior_Icc]
    exact ⟨(3, 4), by norm_num⟩

theorem ex_weights' : ∃ w, WeightsOf (3, 2) exDx' exDy' (2, 3) exSx' exSy' w := by
  obtain ⟨o', h⟩ := C65_safe_partial refGels refGels_contract stdSort stdSort_ok (3, 2) (2, 3) (0, 0) exDx' exDy' exSx' exSy'
    (by decide) (by decide) (by decide) (by decide) (by decide) (by decide) ex_grids'.cells
    { src := none, dst := none, weights := [], it := none, it2 := none } ex_over' (by decide)
  exact ⟨_, refGels, stdSort, .keptBuffer, (0, 0), _, o', refGels_contract, stdSort_ok, rfl, h, rfl⟩

/-- All hypotheses of `C84_rigid` and `C84_affine` hold of the example and its translate. -/
example : ∃ w w' : Nat → Nat → ℝ, WeightsOf (3, 2) exDx exDy (2, 3) exSx exSy w ∧
    WeightsOf (3, 2) exDx' exDy' (2, 3) exSx' exSy' w' ∧
    ∀ i < cellCount (3, 2), ∀ j < cellCount (2, 3), w' i j = w i j := by
  obtain ⟨w, hw⟩ := ex_weights
  obtain ⟨w', hw'⟩ := ex_weights'
  exact ⟨w, w', hw, hw', fun i hi j hj => C84_rigid exShift exShift_rigid (dx' := exDx') (dy' := exDy')
    (sx' := exSx') (sy' := exSy') ex_grids hw rfl rfl rfl rfl hw' exD_moved exS_moved i j hi hj⟩

end Sg.Props
