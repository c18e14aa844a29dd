import Verif.Spec.Ieee
import Verif.Props.Grids
import Verif.Props.Octree
import Verif.Proof.OctreeIeee
/-
Property C120: what the divisions by zero in the code leave to the caller, in the arithmetic of Verif/Spec/Ieee.lean.
-/
namespace Sg.Props
open Sg.Grids Sg.Ieee

section field
variable {K : Type} [Field K] [LinearOrder K] [IsStrictOrderedRing K]

/-- The coordinate of node `i` of `n` equally spaced ones. -/
def axisNode (lo hi : K) (n i : Nat) : Ieee K := if n = 1 then nan else fin (lo + (i : K) * (hi - lo) / ((n : K) - 1))

theorem axis_value (lo hi : K) (n i : Nat) (h : i < n) :
    (fin lo + (fin hi - fin lo) / (((n : Int) - 1 : Int) : Ieee K) * (i : Ieee K)) = axisNode lo hi n i := by
  unfold axisNode
  rw [fin_sub, fin_int, fin_nat]
  split
  · rename_i h1
    subst h1
    obtain rfl : i = 0 := by omega
    simp only [Nat.cast_one, sub_self, Int.cast_zero, Nat.cast_zero, div_zero_mul_zero, add_nan]
  · rename_i h1
    have hc : (((n : Int) - 1 : Int) : K) = (n : K) - 1 := by push_cast; ring
    have h0 : (n : K) - 1 ≠ 0 := by
      intro e
      apply h1
      exact_mod_cast sub_eq_zero.mp e
    rw [hc, fin_div _ _ h0, fin_mul, fin_add]
    congr 1
    ring

/-- **C120** With finite bounds the coordinate of a node of a rectangular grid is a number if there are at least two nodes along its
axis, and NaN if there is one: the length of the axis is divided by the number of nodes minus one. -/
theorem C120_rectangular (n0 n1 : Nat) (lo hi : K × K) (c : List (Ieee K) × List (Ieee K)) (hc0 : n0 * n1 ≤ c.1.length)
    (hc1 : n0 * n1 ≤ c.2.length) :
    ∃ r, createRectangularGrid n0 n1 (fin lo.1, fin lo.2) (fin hi.1, fin hi.2) c = .ok r ∧
      ∀ i j, i < n0 → j < n1 →
        r.1[i * n1 + j]? = some (if n0 = 1 then nan else fin (lo.1 + (i : K) * (hi.1 - lo.1) / ((n0 : K) - 1))) ∧
        r.2[i * n1 + j]? = some (if n1 = 1 then nan else fin (lo.2 + (j : K) * (hi.2 - lo.2) / ((n1 : K) - 1))) := by
  obtain ⟨r, h1, _, _, h4, -⟩ := fillNodes_spec n0 n1
    (fun i j => (fin lo.1 + (fin hi.1 - fin lo.1) / (((n0 : Int) - 1 : Int) : Ieee K) * (i : Ieee K),
      fin lo.2 + (fin hi.2 - fin lo.2) / (((n1 : Int) - 1 : Int) : Ieee K) * (j : Ieee K))) c hc0 hc1
  refine ⟨r, h1, fun i j hi hj => ?_⟩
  obtain ⟨a, b⟩ := h4 i j hi hj
  rw [a, b, axis_value _ _ _ _ hi, axis_value _ _ _ _ hj]
  exact ⟨rfl, rfl⟩

end field

/-- A function of one number, NaN outside of its domain. -/
def liftOn (dom : ℝ → Prop) [DecidablePred dom] (f : ℝ → ℝ) : Ieee ℝ → Ieee ℝ
  | fin x => if dom x then fin (f x) else nan
  | _ => nan

/-- The library functions on finite arguments; the ones with periods have no value at an infinity.  Simplifications: the tangent has a value
everywhere, the arctangents of an infinity, which no grid generator takes for finite arguments, are NaN. -/
noncomputable instance instTrigIeee : Trig (Ieee ℝ) where
  pi := fin Real.pi
  sin := liftOn (fun _ => True) Real.sin
  cos := liftOn (fun _ => True) Real.cos
  tan := liftOn (fun _ => True) Real.tan
  asin := open Classical in liftOn (fun x => -1 ≤ x ∧ x ≤ 1) Real.arcsin
  acos := open Classical in liftOn (fun x => -1 ≤ x ∧ x ≤ 1) Real.arccos
  atan := liftOn (fun _ => True) Real.arctan
  atan2 := fun a b => match a, b with
    | fin y, fin x => fin (Complex.arg ⟨x, y⟩)
    | _, _ => nan

theorem isin_fin (x : ℝ) : (Trig.sin (fin x) : Ieee ℝ) = fin (Real.sin x) := if_pos (e := nan) trivial
theorem icos_fin (x : ℝ) : (Trig.cos (fin x) : Ieee ℝ) = fin (Real.cos x) := if_pos (e := nan) trivial
theorem ipi_fin : (Trig.pi : Ieee ℝ) = fin Real.pi := rfl
theorem isin_nan : (Trig.sin (nan : Ieee ℝ)) = nan := rfl
theorem icos_nan : (Trig.cos (nan : Ieee ℝ)) = nan := rfl

/-- **C120** A polar grid with one node along an axis has no finite coordinate at all; with two or more along both, and finite arguments,
all are numbers. -/
theorem C120_polar (n0 n1 : Nat) (center : ℝ × ℝ) (radius : ℝ) (c : List (Ieee ℝ) × List (Ieee ℝ)) (hc0 : n0 * n1 ≤ c.1.length)
    (hc1 : n0 * n1 ≤ c.2.length) :
    ∃ r, createPolarGrid n0 n1 (fin center.1, fin center.2) (fin radius) c = .ok r ∧
      ∀ i j, i < n0 → j < n1 →
        if n0 = 1 ∨ n1 = 1 then r.1[i * n1 + j]? = some nan ∧ r.2[i * n1 + j]? = some nan
        else
          r.1[i * n1 + j]? = some (fin ((center.1 + i * radius / (n0 - 1)) * Real.cos (center.2 + 2 * Real.pi * j / (n1 - 1)))) ∧
          r.2[i * n1 + j]? = some (fin ((center.1 + i * radius / (n0 - 1)) * Real.sin (center.2 + 2 * Real.pi * j / (n1 - 1)))) := by
  obtain ⟨r, h1, _, _, h4, -⟩ := fillNodes_spec n0 n1
    (fun i j =>
      let rho := fin center.1 + fin radius / (((n0 : Int) - 1 : Int) : Ieee ℝ) * (i : Ieee ℝ)
      let the := fin center.2 + ((2 : Nat) : Ieee ℝ) * Trig.pi / (((n1 : Int) - 1 : Int) : Ieee ℝ) * (j : Ieee ℝ)
      (rho * Trig.cos the, rho * Trig.sin the)) c hc0 hc1
  refine ⟨r, h1, fun i j hi hj => ?_⟩
  obtain ⟨a, b⟩ := h4 i j hi hj
  rw [a, b]
  dsimp only
  have e0 := axis_value center.1 (center.1 + radius) n0 i hi
  have e1 := axis_value center.2 (center.2 + 2 * Real.pi) n1 j hj
  rw [fin_sub, add_sub_cancel_left] at e0 e1
  rw [ipi_fin, fin_nat 2, fin_mul, Nat.cast_ofNat, e0, e1]
  unfold axisNode
  rw [add_sub_cancel_left, add_sub_cancel_left]
  by_cases h0 : n0 = 1
  · rw [if_pos h0, if_pos (Or.inl h0)]
    simp only [nan_mul, and_self]
  · by_cases h1 : n1 = 1
    · rw [if_pos h1, if_pos (Or.inr h1)]
      simp only [isin_nan, icos_nan, mul_nan, and_self]
    · rw [if_neg h0, if_neg h1, if_neg (by tauto)]
      simp only [isin_fin, icos_fin, fin_mul]
      rw [show (j : ℝ) * (2 * Real.pi) = 2 * Real.pi * j by ring]
      exact ⟨rfl, rfl⟩

theorem row_value (nj j : Nat) (h : j < nj) :
    (rowLat nj j : Ieee ℝ) = if nj = 1 then nan else fin (rowLat nj j) := by
  unfold rowLat
  rw [fin_nat, fin_nat, fin_nat, fin_int, fin_neg, fin_mul]
  split
  · rename_i h1
    subst h1
    obtain rfl : j = 0 := by omega
    simp only [Nat.cast_one, sub_self, Int.cast_zero, Nat.cast_zero, mul_zero, zero_div_zero, add_nan]
  · rename_i h1
    have h0 : (((nj : Int) - 1 : Int) : ℝ) ≠ 0 := by
      intro e
      have : (nj : Int) - 1 = 0 := by exact_mod_cast e
      omega
    rw [fin_div _ _ h0, fin_add]

theorem col_value (ni i : Nat) (h : i < ni) :
    (colLon ni i : Ieee ℝ) = if ni = 1 then nan else fin (colLon ni i) := by
  unfold colLon
  rw [fin_nat, fin_nat, fin_nat, fin_int, fin_neg, fin_mul]
  split
  · rename_i h1
    subst h1
    obtain rfl : i = 0 := by omega
    simp only [Nat.cast_one, sub_self, Int.cast_zero, Nat.cast_zero, mul_zero, zero_div_zero, add_nan]
  · rename_i h1
    have h0 : (((ni : Int) - 1 : Int) : ℝ) ≠ 0 := by
      intro e
      have : (ni : Int) - 1 = 0 := by exact_mod_cast e
      omega
    rw [fin_div _ _ h0, fin_add]

theorem rot_value (dlat dlon : ℝ) (k : Nat) (hk : k < 9) : rotMatrix (fin dlat) (fin dlon) k = fin (rotMatrix dlat dlon k) := by
  have h180 : ((180 : Nat) : ℝ) ≠ 0 := by norm_num
  unfold rotMatrix
  simp only [ipi_fin, fin_nat, fin_mul, fin_div _ _ h180, isin_fin, icos_fin, fin_neg]
  unfold matrixDotMatrix
  interval_cases k <;> simp only [arr, List.getD_cons_zero, List.getD_cons_succ, Nat.reduceMul, Nat.reduceAdd, Nat.reduceDiv,
    Nat.reduceMod, fin_nat, fin_mul, fin_add, trig_sin, trig_cos, trig_pi]

theorem point_value (nj ni : Nat) (hj : nj ≠ 1) (hi : ni ≠ 1) (dlat dlon : ℝ) (j i : Nat) (h : j < nj) (h' : i < ni) (k : Nat) (hk : k < 3) :
    rotatedPoint nj ni (fin dlat) (fin dlon) j i k = fin (rotatedPoint nj ni dlat dlon j i k) := by
  have h180 : ((180 : Nat) : ℝ) ≠ 0 := by norm_num
  unfold rotatedPoint
  rw [row_value _ _ h, col_value _ _ h', if_neg hj, if_neg hi]
  simp only [ipi_fin, fin_nat, fin_mul, fin_div _ _ h180, isin_fin, icos_fin]
  unfold matrixDotVector
  rw [rot_value _ _ _ (by omega), rot_value _ _ _ (by omega), rot_value _ _ _ (by omega)]
  simp only [arr, List.getD_cons_zero, List.getD_cons_succ, fin_nat, fin_mul, fin_add, trig_sin, trig_cos, trig_pi]

theorem point_nan (nj ni : Nat) (hn : nj = 1 ∨ ni = 1) (dlat dlon : ℝ) (j i : Nat) (h : j < nj) (h' : i < ni) (k : Nat) :
    rotatedPoint nj ni (fin dlat) (fin dlon) j i k = nan := by
  have h180 : ((180 : Nat) : ℝ) ≠ 0 := by norm_num
  unfold rotatedPoint matrixDotVector
  simp only [arr, List.getD_cons_zero]
  rw [row_value _ _ h, col_value _ _ h']
  by_cases h1 : nj = 1
  · simp only [if_pos h1, mul_nan, nan_div, icos_nan, nan_mul, nan_add, add_nan]
  · simp only [if_pos (hn.resolve_left h1), mul_nan, nan_div, icos_nan, nan_add, add_nan]

/-- **C120** A grid with displaced pole with one node along an axis has no finite coordinate at all; with two or more along both, and
finite angles, all are the numbers of C26. -/
theorem C120_rotated (nj ni : Nat) (dlat dlon : ℝ) (c : List (Ieee ℝ) × List (Ieee ℝ)) (c' : List ℝ × List ℝ)
    (hc0 : nj * ni ≤ c.1.length) (hc1 : nj * ni ≤ c.2.length) (hc0' : nj * ni ≤ c'.1.length) (hc1' : nj * ni ≤ c'.2.length) :
    ∃ r r', createRotatedPoleGrid nj ni (fin dlat) (fin dlon) c = .ok r ∧ createRotatedPoleGrid nj ni dlat dlon c' = .ok r' ∧
      ∀ j i, j < nj → i < ni →
        if nj = 1 ∨ ni = 1 then r.1[j * ni + i]? = some nan ∧ r.2[j * ni + i]? = some nan
        else ∃ lat lon, r'.1[j * ni + i]? = some lat ∧ r'.2[j * ni + i]? = some lon ∧
          r.1[j * ni + i]? = some (fin lat) ∧ r.2[j * ni + i]? = some (fin lon) := by
  obtain ⟨r, h1, _, _, h4, -⟩ := fillNodes_spec nj ni
    (fun j i =>
      let xyz := rotatedPoint nj ni (fin dlat) (fin dlon) j i
      (((180 : Nat) : Ieee ℝ) * Trig.asin (xyz 2) / Trig.pi, ((180 : Nat) : Ieee ℝ) * Trig.atan2 (xyz 1) (xyz 0) / Trig.pi)) c hc0 hc1
  obtain ⟨r', h1', _, _, h4', -⟩ := fillNodes_spec nj ni
    (fun j i =>
      let xyz := rotatedPoint nj ni dlat dlon j i
      (((180 : Nat) : ℝ) * Trig.asin (xyz 2) / Trig.pi, ((180 : Nat) : ℝ) * Trig.atan2 (xyz 1) (xyz 0) / Trig.pi)) c' hc0' hc1'
  refine ⟨r, r', h1, h1', fun j i hj hi => ?_⟩
  obtain ⟨a, b⟩ := h4 j i hj hi
  obtain ⟨a', b'⟩ := h4' j i hj hi
  split
  · rename_i hn
    rw [a, b]
    dsimp only
    simp only [point_nan nj ni hn dlat dlon j i hj hi]
    exact ⟨rfl, rfl⟩
  · rename_i hn
    have g0 : nj ≠ 1 := fun h => hn (Or.inl h)
    have g1 : ni ≠ 1 := fun h => hn (Or.inr h)
    refine ⟨_, _, a', b', ?_⟩
    rw [a, b]
    dsimp only
    rw [point_value nj ni g0 g1 dlat dlon j i hj hi 2 (by norm_num), point_value nj ni g0 g1 dlat dlon j i hj hi 1 (by norm_num),
      point_value nj ni g0 g1 dlat dlon j i hj hi 0 (by norm_num)]
    obtain ⟨-, hz⟩ := C26_on_sphere nj ni (by omega) (by omega) dlat dlon j i
    have hp := Real.pi_ne_zero
    have e1 : (Trig.asin (fin (rotatedPoint nj ni dlat dlon j i 2)) : Ieee ℝ) = fin (Trig.asin (rotatedPoint nj ni dlat dlon j i 2)) :=
      if_pos (e := nan) hz
    have e2 : ∀ y x : ℝ, (Trig.atan2 (fin y) (fin x) : Ieee ℝ) = fin (Trig.atan2 y x) := fun _ _ => rfl
    rw [e1, e2, ipi_fin, fin_nat, fin_mul, fin_mul, fin_div _ _ hp, fin_div _ _ hp]
    exact ⟨rfl, rfl⟩

/-! ### Trees of points in a plane, on a line or at one place -/

section octree
open Sg.Octree
variable {K : Type} [Field K] [LinearOrder K] [IsStrictOrderedRing K] [FloorRing K]

/-- **C120** The box of the key of a point contains the point also when the points have the same coordinate along some axes, where the
position of the point in the domain is zero divided by zero. -/
theorem C120_octree {n : Nat} (big : K) (nlevs : Nat) (points : List (Fin n → K)) (t : Tree (Ieee K) n)
    (hnew : Octree.new (fin big) nlevs (points.map fun p j => fin (p j)) = .ok t) (hbig : ∀ p ∈ points, ∀ j, -big ≤ p j ∧ p j ≤ big)
    (p : Fin n → K) (hp : p ∈ points) (lev : Nat) (hlev : lev ≤ nlevs) (j : Fin n) :
    ∃ lo hi : K, t.getLo (getKey t.xmins t.xmaxs (fun j => fin (p j)) lev) j = fin lo ∧
      t.getHi (getKey t.xmins t.xmaxs (fun j => fin (p j)) lev) j = fin hi ∧ lo ≤ p j ∧ p j ≤ hi := by
  unfold Octree.new at hnew
  split at hnew
  · cases hnew
  · rename_i hn
    cases hnew
    have hb := bounds_fin big points
    unfold finite at hb
    rw [hb]
    have hin := bounds_spec big points hbig p hp
    have hk := getKey_fin _ _ _ hin lev
    have h := C15_box_contains_point big nlevs points (build (bounds big points).1 (bounds big points).2 nlevs)
      (by unfold Octree.new; rw [if_neg hn]) hbig p hp lev hlev j
    have e1 := getLo_fin (bounds big points).1 (bounds big points).2 nlevs
    have e2 := getHi_fin (bounds big points).1 (bounds big points).2 nlevs
    unfold finite at hk e1 e2
    refine ⟨_, _, ?_, ?_, h⟩
    · exact (congrArg (fun k => (build (fun j => fin ((bounds big points).1 j)) (fun j => fin ((bounds big points).2 j)) nlevs).getLo k j) hk).trans
        (congrFun (e1 _) j)
    · exact (congrArg (fun k => (build (fun j => fin ((bounds big points).1 j)) (fun j => fin ((bounds big points).2 j)) nlevs).getHi k j) hk).trans
        (congrFun (e2 _) j)

/-- **C120** Along an axis of length zero a point beyond the domain does not get the key of the nearest point of the domain (C18): its
position is plus infinity, that of the points of the domain NaN, which counts as zero. -/
theorem C120_flat_outside_refuted :
    let at_ (x : ℚ) : Fin 1 → Ieee ℚ := fun _ => fin x
    (∃ t, Octree.new (fin (1000 : ℚ)) 1 [at_ 0] = .ok t ∧ t.xmins = at_ 0 ∧ t.xmaxs = at_ 0) ∧
      getKey (at_ 0) (at_ 0) (at_ 1) 1 = [1] ∧ getKey (at_ 0) (at_ 0) (at_ 0) 1 = [0] := by
  refine ⟨⟨_, rfl, ?_, ?_⟩, ?_, ?_⟩ <;> decide +kernel

/-- The hypotheses of `C120_octree` are met by points on a line parallel to an axis. -/
example : (∃ t, Octree.new (fin (1000 : ℚ)) 3 ([![0, 5], ![1, 5], ![3 / 4, 5]].map fun (p : Fin 2 → ℚ) j => fin (p j)) = .ok t ∧
    getKey t.xmins t.xmaxs ![fin (3 / 4), fin 5] 3 = [2, 2, 0]) ∧
    ∀ p ∈ ([![0, 5], ![1, 5], ![3 / 4, 5]] : List (Fin 2 → ℚ)), ∀ j, -(1000 : ℚ) ≤ p j ∧ p j ≤ 1000 := by
  refine ⟨⟨_, rfl, ?_⟩, ?_⟩ <;> decide +kernel

end octree

/-- Grids with one node along an axis. -/
example : createRectangularGrid 1 3 (fin (0 : ℚ), fin 0) (fin 2, fin 1) (List.replicate 3 (fin 0), List.replicate 3 (fin 0)) =
    .ok ([nan, nan, nan], [fin 0, fin (1 / 2), fin 1]) := by
  decide +kernel

end Sg.Props
