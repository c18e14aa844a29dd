import Verif.Proof.Grids
import Mathlib.Analysis.SpecialFunctions.Trigonometric.Basic
import Mathlib.Analysis.SpecialFunctions.Trigonometric.Inverse
import Mathlib.Analysis.SpecialFunctions.Trigonometric.Arctan
import Mathlib.Analysis.SpecialFunctions.Complex.Arg
import Mathlib.Tactic.FieldSimp
import Mathlib.Tactic.LinearCombination
import Mathlib.Tactic.IntervalCases
/-
Properties C24-C27: grid generators.
-/
namespace Sg.Props
open Sg.Grids

section field
variable {K : Type} [Field K] [LinearOrder K] [IsStrictOrderedRing K]

/-- C24: for at least two nodes per axis, and arrays large enough, `createRectangularGrid` runs without
undefined behaviour, writes node `(i,j)` at position `i*n1+j`, and touches nothing past `n0*n1`. -/
theorem C24_rectangular (n0 n1 : Nat) (_hn0 : 2 ≤ n0) (_hn1 : 2 ≤ n1) (xmins xmaxs : K × K) (c : List K × List K)
    (hc0 : n0 * n1 ≤ c.1.length) (hc1 : n0 * n1 ≤ c.2.length) :
    ∃ r, createRectangularGrid n0 n1 xmins xmaxs c = .ok r ∧
      (∀ i j, i < n0 → j < n1 →
        r.1[i * n1 + j]? = some (xmins.1 + (i : K) * (xmaxs.1 - xmins.1) / ((n0 : K) - 1)) ∧
        r.2[i * n1 + j]? = some (xmins.2 + (j : K) * (xmaxs.2 - xmins.2) / ((n1 : K) - 1))) ∧
      (∀ k, n0 * n1 ≤ k → r.1[k]? = c.1[k]? ∧ r.2[k]? = c.2[k]?) := by
  obtain ⟨r, h1, _, _, h4, h5⟩ := fillNodes_spec n0 n1
    (fun i j => (xmins.1 + (xmaxs.1 - xmins.1) / (((n0 : Int) - 1 : Int) : K) * (i : K),
      xmins.2 + (xmaxs.2 - xmins.2) / (((n1 : Int) - 1 : Int) : K) * (j : K))) c hc0 hc1
  refine ⟨r, h1, fun i j hi hj => ?_, h5⟩
  obtain ⟨a, b⟩ := h4 i j hi hj
  rw [a, b]
  push_cast
  exact ⟨by congr 1; ring, by congr 1; ring⟩

/-- C24: the first and last nodes are the corners of the box, and coordinates increase strictly. -/
theorem C24_rectangular_corners (n : Nat) (hn : 2 ≤ n) (lo hi : K) (h : lo < hi) :
    let x := fun i : Nat => lo + (i : K) * (hi - lo) / ((n : K) - 1)
    x 0 = lo ∧ x (n - 1) = hi ∧ ∀ i j, i < j → x i < x j := by
  have hn' : (0 : K) < (n : K) - 1 := by
    have : ((1 : Nat) : K) < (n : K) := by exact_mod_cast hn
    rw [Nat.cast_one] at this; linarith
  refine ⟨by simp, ?_, ?_⟩
  · dsimp only
    rw [Nat.cast_sub (by omega), Nat.cast_one]
    field_simp
    ring
  · intro i j hij
    dsimp only
    have : (i : K) < (j : K) := by exact_mod_cast hij
    have : (i : K) * (hi - lo) / ((n : K) - 1) < (j : K) * (hi - lo) / ((n : K) - 1) := by
      apply div_lt_div_of_pos_right _ hn'
      exact mul_lt_mul_of_pos_right this (by linarith)
    linarith

end field

/-- Real functions. -/
noncomputable instance instTrigReal : Trig ℝ where
  pi := Real.pi
  sin := Real.sin
  cos := Real.cos
  tan := Real.tan
  asin := Real.arcsin
  acos := Real.arccos
  atan := Real.arctan
  atan2 y x := Complex.arg ⟨x, y⟩

theorem trig_sin : (Trig.sin : ℝ → ℝ) = Real.sin := rfl
theorem trig_cos : (Trig.cos : ℝ → ℝ) = Real.cos := rfl
theorem trig_pi : (Trig.pi : ℝ) = Real.pi := rfl

theorem arg_polar (r θ : ℝ) (hr : 0 < r) (h1 : -Real.pi < θ) (h2 : θ ≤ Real.pi) :
    Complex.arg ⟨r * Real.cos θ, r * Real.sin θ⟩ = θ := by
  have := Complex.arg_mul_cos_add_sin_mul_I hr (θ := θ) ⟨h1, h2⟩
  conv_rhs => rw [← this]
  congr 1
  apply Complex.ext
  · simp [Complex.add_re, Complex.mul_re, Complex.cos_ofReal_re, Complex.sin_ofReal_re]
  · simp [Complex.add_im, Complex.mul_im, Complex.cos_ofReal_re, Complex.sin_ofReal_re]

/-- C25, for a center at the origin and at least two nodes per axis: node `(i,j)` is at distance `i*radius/(n0-1)` and angle
`2 pi j/(n1-1)`.  Missing: other centers, for which the property fails, see `C25_polar_refuted`. -/
theorem C25_polar_partial (n0 n1 : Nat) (_hn0 : 2 ≤ n0) (_hn1 : 2 ≤ n1) (radius : ℝ) (c : List ℝ × List ℝ)
    (hc0 : n0 * n1 ≤ c.1.length) (hc1 : n0 * n1 ≤ c.2.length) :
    ∃ r, createPolarGrid n0 n1 (0, 0) radius c = .ok r ∧
      ∀ i j, i < n0 → j < n1 →
        r.1[i * n1 + j]? = some ((i : ℝ) * radius / ((n0 : ℝ) - 1) * Real.cos (2 * Real.pi * j / ((n1 : ℝ) - 1))) ∧
        r.2[i * n1 + j]? = some ((i : ℝ) * radius / ((n0 : ℝ) - 1) * Real.sin (2 * Real.pi * j / ((n1 : ℝ) - 1))) := by
  obtain ⟨r, h1, _, _, h4, h5⟩ := fillNodes_spec n0 n1
    (fun i j =>
      let rho := (0 : ℝ) + radius / (((n0 : Int) - 1 : Int) : ℝ) * (i : ℝ)
      let the := (0 : ℝ) + ((2 : Nat) : ℝ) * Trig.pi / (((n1 : Int) - 1 : Int) : ℝ) * (j : ℝ)
      (rho * Trig.cos the, rho * Trig.sin the)) c hc0 hc1
  refine ⟨r, h1, fun i j hi hj => ?_⟩
  obtain ⟨a, b⟩ := h4 i j hi hj
  rw [a, b]
  dsimp only
  have e1 : (0 : ℝ) + radius / (((n0 : Int) - 1 : Int) : ℝ) * (i : ℝ) = (i : ℝ) * radius / ((n0 : ℝ) - 1) := by
    push_cast; ring
  have e2 : (0 : ℝ) + ((2 : Nat) : ℝ) * Trig.pi / (((n1 : Int) - 1 : Int) : ℝ) * (j : ℝ)
      = 2 * Real.pi * j / ((n1 : ℝ) - 1) := by
    show (0 : ℝ) + ((2 : Nat) : ℝ) * Real.pi / (((n1 : Int) - 1 : Int) : ℝ) * (j : ℝ) = _
    push_cast; ring
  rw [e1, e2]
  exact ⟨rfl, rfl⟩

/-- C25 fails for every center off the first axis: with at least two nodes per axis, node `(0,0)`, which
should be the center itself, is not.  (`center` is added to the radius and to the angle.) -/
theorem C25_polar_refuted (n0 n1 : Nat) (h0 : 2 ≤ n0) (h1 : 2 ≤ n1) (cy radius : ℝ) (hcy : cy ≠ 0)
    (c : List ℝ × List ℝ) (hc0 : n0 * n1 ≤ c.1.length) (hc1 : n0 * n1 ≤ c.2.length) :
    ∃ r, createPolarGrid n0 n1 (0, cy) radius c = .ok r ∧ r.2[0 * n1 + 0]? ≠ some cy := by
  obtain ⟨r, hr, _, _, h4, _⟩ := fillNodes_spec n0 n1
    (fun i j =>
      let rho := (0 : ℝ) + radius / (((n0 : Int) - 1 : Int) : ℝ) * (i : ℝ)
      let the := cy + ((2 : Nat) : ℝ) * Trig.pi / (((n1 : Int) - 1 : Int) : ℝ) * (j : ℝ)
      (rho * Trig.cos the, rho * Trig.sin the)) c hc0 hc1
  refine ⟨r, hr, ?_⟩
  rw [(h4 0 0 (by omega) (by omega)).2]
  simp only [Nat.cast_zero, mul_zero, add_zero, zero_mul]
  intro h
  exact hcy (Option.some.inj h).symm

/-! ### rotated pole -/

/-- C26: the transformation is orthogonal. -/
theorem C26_rotation_orthogonal (dlat dlon : ℝ) (i j : Nat) (hi : i < 3) (hj : j < 3) :
    rotMatrix dlat dlon (3 * i) * rotMatrix dlat dlon (3 * j)
      + rotMatrix dlat dlon (3 * i + 1) * rotMatrix dlat dlon (3 * j + 1)
      + rotMatrix dlat dlon (3 * i + 2) * rotMatrix dlat dlon (3 * j + 2) = if i = j then 1 else 0 := by
  have ha := Real.sin_sq_add_cos_sq (Real.pi * dlat / ((180 : Nat) : ℝ))
  have hb := Real.sin_sq_add_cos_sq (Real.pi * dlon / ((180 : Nat) : ℝ))
  simp only [rotMatrix, matrixDotMatrix, trig_sin, trig_cos, trig_pi]
  generalize Real.sin (Real.pi * dlat / ((180 : Nat) : ℝ)) = sa at *
  generalize Real.cos (Real.pi * dlat / ((180 : Nat) : ℝ)) = ca at *
  generalize Real.sin (Real.pi * dlon / ((180 : Nat) : ℝ)) = sb at *
  generalize Real.cos (Real.pi * dlon / ((180 : Nat) : ℝ)) = cb at *
  interval_cases i <;> interval_cases j <;>
    simp only [arr, List.getD_cons_zero, List.getD_cons_succ, Nat.reduceMul, Nat.reduceAdd, Nat.reduceDiv,
      Nat.reduceMod, Nat.cast_zero, Nat.cast_one] <;> norm_num
  · linear_combination cb ^ 2 * ha + hb
  · linear_combination (-(sb * cb)) * ha
  · ring
  · linear_combination (-(sb * cb)) * ha
  · linear_combination sb ^ 2 * ha + hb
  · ring
  · ring
  · ring
  · linear_combination ha

/-- Components of a rotated node. -/
theorem rotated_explicit (nj ni : Nat) (dlat dlon : ℝ) (j i : Nat) :
    let a := Real.pi * dlat / 180
    let b := Real.pi * dlon / 180
    let t := Real.pi * rowLat nj j / 180
    let l := Real.pi * colLon ni i / 180
    rotatedPoint nj ni dlat dlon j i 0 =
        Real.cos b * Real.cos a * (Real.cos t * Real.cos l) + Real.sin b * (Real.cos t * Real.sin l)
          + Real.cos b * Real.sin a * Real.sin t ∧
    rotatedPoint nj ni dlat dlon j i 1 =
        -Real.sin b * Real.cos a * (Real.cos t * Real.cos l) + Real.cos b * (Real.cos t * Real.sin l)
          - Real.sin b * Real.sin a * Real.sin t ∧
    rotatedPoint nj ni dlat dlon j i 2 =
        -Real.sin a * (Real.cos t * Real.cos l) + Real.cos a * Real.sin t := by
  simp only [rotatedPoint, rotMatrix, matrixDotMatrix, matrixDotVector, trig_sin, trig_cos, trig_pi, arr, List.getD_cons_zero,
    List.getD_cons_succ, Nat.reduceMul, Nat.reduceAdd, Nat.reduceDiv, Nat.reduceMod, Nat.cast_zero, Nat.cast_one,
    Nat.cast_ofNat]
  refine ⟨by ring, by ring, by ring⟩

/-- C26: rotated nodes stay on the unit sphere, so the arcsine is taken inside its domain. -/
theorem C26_on_sphere (nj ni : Nat) (_hnj : 2 ≤ nj) (_hni : 2 ≤ ni) (dlat dlon : ℝ) (j i : Nat) :
    rotatedPoint nj ni dlat dlon j i 0 ^ 2 + rotatedPoint nj ni dlat dlon j i 1 ^ 2
      + rotatedPoint nj ni dlat dlon j i 2 ^ 2 = 1 ∧
    -1 ≤ rotatedPoint nj ni dlat dlon j i 2 ∧ rotatedPoint nj ni dlat dlon j i 2 ≤ 1 := by
  have main : rotatedPoint nj ni dlat dlon j i 0 ^ 2 + rotatedPoint nj ni dlat dlon j i 1 ^ 2
      + rotatedPoint nj ni dlat dlon j i 2 ^ 2 = 1 := by
    obtain ⟨h0, h1, h2⟩ := rotated_explicit nj ni dlat dlon j i
    rw [h0, h1, h2]
    have ha := Real.sin_sq_add_cos_sq (Real.pi * dlat / 180)
    have hb := Real.sin_sq_add_cos_sq (Real.pi * dlon / 180)
    have ht := Real.sin_sq_add_cos_sq (Real.pi * rowLat nj j / 180)
    have hl := Real.sin_sq_add_cos_sq (Real.pi * colLon ni i / 180)
    generalize Real.sin (Real.pi * dlat / 180) = sa at *
    generalize Real.cos (Real.pi * dlat / 180) = ca at *
    generalize Real.sin (Real.pi * dlon / 180) = sb at *
    generalize Real.cos (Real.pi * dlon / 180) = cb at *
    generalize Real.sin (Real.pi * rowLat nj j / 180) = st at *
    generalize Real.cos (Real.pi * rowLat nj j / 180) = ct at *
    generalize Real.sin (Real.pi * colLon ni i / 180) = sl at *
    generalize Real.cos (Real.pi * colLon ni i / 180) = cl at *
    linear_combination ((ca * ct * cl + sa * st) ^ 2 + (ct * sl) ^ 2) * hb
      + ((ct * cl) ^ 2 + st ^ 2) * ha + ct ^ 2 * hl + ht
  refine ⟨main, ?_, ?_⟩ <;> nlinarith [sq_nonneg (rotatedPoint nj ni dlat dlon j i 0),
    sq_nonneg (rotatedPoint nj ni dlat dlon j i 1)]

/-- C26: every latitude written is between -90 and 90 degrees and is the latitude of the rotated point. -/
theorem C26_latitudes (nj ni : Nat) (hnj : 2 ≤ nj) (hni : 2 ≤ ni) (dlat dlon : ℝ) (c : List ℝ × List ℝ)
    (hc0 : nj * ni ≤ c.1.length) (hc1 : nj * ni ≤ c.2.length) :
    ∃ r, createRotatedPoleGrid nj ni dlat dlon c = .ok r ∧
      ∀ j i, j < nj → i < ni → ∃ lat lon, r.1[j * ni + i]? = some lat ∧ r.2[j * ni + i]? = some lon ∧
        -90 ≤ lat ∧ lat ≤ 90 ∧ -180 < lon ∧ lon ≤ 180 ∧
        Real.sin (Real.pi * lat / 180) = rotatedPoint nj ni dlat dlon j i 2 := by
  obtain ⟨r, h1, _, _, h4, _⟩ := fillNodes_spec nj ni
    (fun j i =>
      let xyz := rotatedPoint nj ni dlat dlon j i
      (((180 : Nat) : ℝ) * Trig.asin (xyz 2) / Trig.pi, ((180 : Nat) : ℝ) * Trig.atan2 (xyz 1) (xyz 0) / Trig.pi))
    c hc0 hc1
  refine ⟨r, h1, fun j i hj hi => ?_⟩
  obtain ⟨a, b⟩ := h4 j i hj hi
  refine ⟨_, _, a, b, ?_⟩
  obtain ⟨_, hz1, hz2⟩ := C26_on_sphere nj ni hnj hni dlat dlon j i
  have hpi := Real.pi_pos
  have e1 : (((180 : Nat) : ℝ) * Trig.asin (rotatedPoint nj ni dlat dlon j i 2) / Trig.pi)
      = 180 * Real.arcsin (rotatedPoint nj ni dlat dlon j i 2) / Real.pi := by push_cast; rfl
  have e2 : (((180 : Nat) : ℝ) * Trig.atan2 (rotatedPoint nj ni dlat dlon j i 1) (rotatedPoint nj ni dlat dlon j i 0)
      / Trig.pi) = 180 * Complex.arg ⟨rotatedPoint nj ni dlat dlon j i 0, rotatedPoint nj ni dlat dlon j i 1⟩ / Real.pi := by
    push_cast; rfl
  dsimp only
  rw [e1, e2]
  have l1 := Real.neg_pi_div_two_le_arcsin (rotatedPoint nj ni dlat dlon j i 2)
  have l2 := Real.arcsin_le_pi_div_two (rotatedPoint nj ni dlat dlon j i 2)
  have l3 := Complex.neg_pi_lt_arg ⟨rotatedPoint nj ni dlat dlon j i 0, rotatedPoint nj ni dlat dlon j i 1⟩
  have l4 := Complex.arg_le_pi ⟨rotatedPoint nj ni dlat dlon j i 0, rotatedPoint nj ni dlat dlon j i 1⟩
  refine ⟨?_, ?_, ?_, ?_, ?_⟩
  · rw [le_div_iff₀ hpi]; linarith
  · rw [div_le_iff₀ hpi]; linarith
  · rw [lt_div_iff₀ hpi]; linarith
  · rw [div_le_iff₀ hpi]; linarith
  · have : Real.pi * (180 * Real.arcsin (rotatedPoint nj ni dlat dlon j i 2) / Real.pi) / 180
        = Real.arcsin (rotatedPoint nj ni dlat dlon j i 2) := by field_simp
    rw [this, Real.sin_arcsin hz1 hz2]

theorem rowLat_bounds (nj j : Nat) (hnj : 2 ≤ nj) (hj : j < nj) : -90 ≤ (rowLat nj j : ℝ) ∧ (rowLat nj j : ℝ) ≤ 90 := by
  have h1 : (0 : ℝ) < (nj : ℝ) - 1 := by
    have : ((1 : Nat) : ℝ) < (nj : ℝ) := by exact_mod_cast hnj
    rw [Nat.cast_one] at this; linarith
  have h2 : (j : ℝ) ≤ (nj : ℝ) - 1 := by
    have : ((j + 1 : Nat) : ℝ) ≤ (nj : ℝ) := by exact_mod_cast hj
    push_cast at this; linarith
  unfold rowLat
  push_cast
  have h3 : 180 * (j : ℝ) / ((nj : ℝ) - 1) ≤ 180 := by rw [div_le_iff₀ h1]; linarith
  have h4 : 0 ≤ 180 * (j : ℝ) / ((nj : ℝ) - 1) := by positivity
  constructor <;> linarith

/-- C26: without pole displacement the latitudes are those of the regular grid, and so are the longitudes
away from the poles and from the seam at -180 degrees (which atan2 reports as 180). -/
theorem C26_no_displacement (nj ni : Nat) (hnj : 2 ≤ nj) (hni : 2 ≤ ni) (c : List ℝ × List ℝ)
    (hc0 : nj * ni ≤ c.1.length) (hc1 : nj * ni ≤ c.2.length) :
    ∃ r, createRotatedPoleGrid nj ni (0 : ℝ) 0 c = .ok r ∧
      ∀ j i, j < nj → i < ni → r.1[j * ni + i]? = some (-90 + 180 * (j : ℝ) / ((nj : ℝ) - 1)) ∧
        (0 < j → j + 1 < nj → 0 < i → r.2[j * ni + i]? = some (-180 + 360 * (i : ℝ) / ((ni : ℝ) - 1))) := by
  obtain ⟨r, h1, _, _, h4, _⟩ := fillNodes_spec nj ni
    (fun j i =>
      let xyz := rotatedPoint nj ni (0 : ℝ) 0 j i
      (((180 : Nat) : ℝ) * Trig.asin (xyz 2) / Trig.pi, ((180 : Nat) : ℝ) * Trig.atan2 (xyz 1) (xyz 0) / Trig.pi))
    c hc0 hc1
  refine ⟨r, h1, fun j i hj hi => ?_⟩
  obtain ⟨a, b⟩ := h4 j i hj hi
  rw [a, b]
  obtain ⟨x0, x1, x2⟩ := rotated_explicit nj ni 0 0 j i
  simp only [mul_zero, zero_div, Real.cos_zero, Real.sin_zero, one_mul, zero_mul, add_zero, neg_zero, sub_zero,
    zero_add] at x0 x1 x2
  have hpi := Real.pi_pos
  obtain ⟨b1, b2⟩ := rowLat_bounds nj j hnj hj
  have hrow : (rowLat nj j : ℝ) = -90 + 180 * (j : ℝ) / ((nj : ℝ) - 1) := by unfold rowLat; push_cast; rfl
  have hcol : (colLon ni i : ℝ) = -180 + 360 * (i : ℝ) / ((ni : ℝ) - 1) := by unfold colLon; push_cast; rfl
  constructor
  · dsimp only
    rw [x2]
    have : (Trig.asin (Real.sin (Real.pi * rowLat nj j / 180)) : ℝ) = Real.pi * rowLat nj j / 180 := by
      show Real.arcsin (Real.sin (Real.pi * rowLat nj j / 180)) = _
      apply Real.arcsin_sin <;> nlinarith
    rw [this, ← hrow]
    congr 1
    show ((180 : Nat) : ℝ) * (Real.pi * rowLat nj j / 180) / Real.pi = _
    push_cast; field_simp
  · intro hj0 hj1 hi0
    dsimp only
    rw [x0, x1]
    have hnj1 : (0 : ℝ) < (nj : ℝ) - 1 := by
      have : ((1 : Nat) : ℝ) < (nj : ℝ) := by exact_mod_cast hnj
      rw [Nat.cast_one] at this; linarith
    have hni1 : (0 : ℝ) < (ni : ℝ) - 1 := by
      have : ((1 : Nat) : ℝ) < (ni : ℝ) := by exact_mod_cast hni
      rw [Nat.cast_one] at this; linarith
    have hcos : 0 < Real.cos (Real.pi * rowLat nj j / 180) := by
      apply Real.cos_pos_of_mem_Ioo
      have hj0' : (0 : ℝ) < j := by exact_mod_cast hj0
      have hj1' : (j : ℝ) < (nj : ℝ) - 1 := by
        have : ((j + 1 : Nat) : ℝ) < (nj : ℝ) := by exact_mod_cast hj1
        push_cast at this; linarith
      have q1 : 180 * (j : ℝ) / ((nj : ℝ) - 1) < 180 := by rw [div_lt_iff₀ hnj1]; linarith
      have q2 : 0 < 180 * (j : ℝ) / ((nj : ℝ) - 1) := by positivity
      constructor <;> nlinarith
    have hlon : -180 < (colLon ni i : ℝ) ∧ (colLon ni i : ℝ) ≤ 180 := by
      rw [hcol]
      have hi0' : (0 : ℝ) < i := by exact_mod_cast hi0
      have hi1' : (i : ℝ) ≤ (ni : ℝ) - 1 := by
        have : ((i + 1 : Nat) : ℝ) ≤ (ni : ℝ) := by exact_mod_cast hi
        push_cast at this; linarith
      have q1 : 360 * (i : ℝ) / ((ni : ℝ) - 1) ≤ 360 := by rw [div_le_iff₀ hni1]; linarith
      have q2 : 0 < 360 * (i : ℝ) / ((ni : ℝ) - 1) := by positivity
      constructor <;> linarith
    have : (Trig.atan2 (Real.cos (Real.pi * rowLat nj j / 180) * Real.sin (Real.pi * colLon ni i / 180))
        (Real.cos (Real.pi * rowLat nj j / 180) * Real.cos (Real.pi * colLon ni i / 180)) : ℝ)
        = Real.pi * colLon ni i / 180 := by
      show Complex.arg ⟨_, _⟩ = _
      exact arg_polar _ _ hcos (by nlinarith) (by nlinarith)
    rw [this, ← hcol]
    congr 1
    show ((180 : Nat) : ℝ) * (Real.pi * colLon ni i / 180) / Real.pi = _
    push_cast; field_simp

/-- C26: the products are those of matrices. -/
theorem C26_products (a b v : Nat → ℝ) (i j : Nat) (hi : i < 3) (hj : j < 3) :
    matrixDotMatrix a b (3 * i + j) = ∑ k ∈ Finset.range 3, a (3 * i + k) * b (3 * k + j) ∧
    matrixDotVector a v i = ∑ k ∈ Finset.range 3, a (3 * i + k) * v k := by
  have h1 : (3 * i + j) / 3 = i := by omega
  have h2 : (3 * i + j) % 3 = j := by omega
  unfold matrixDotMatrix matrixDotVector
  simp only [h1, h2, Finset.sum_range_succ, Finset.sum_range_zero, Nat.cast_zero, Nat.mul_comm i 3, Nat.reduceMul, Nat.mul_comm 3 0,
    Nat.zero_mul, and_self]

/-- The point of the unit sphere at a latitude and longitude in degrees. -/
noncomputable def onSphere (lat lon : ℝ) : ℝ × ℝ × ℝ :=
  (Real.cos (Real.pi * lat / 180) * Real.cos (Real.pi * lon / 180),
   Real.cos (Real.pi * lat / 180) * Real.sin (Real.pi * lon / 180), Real.sin (Real.pi * lat / 180))
/-- Turning by an angle in degrees: from the north pole towards longitude 0, and westwards about the axis. -/
noncomputable def tilt (d : ℝ) (p : ℝ × ℝ × ℝ) : ℝ × ℝ × ℝ :=
  (Real.cos (Real.pi * d / 180) * p.1 + Real.sin (Real.pi * d / 180) * p.2.2, p.2.1,
   -Real.sin (Real.pi * d / 180) * p.1 + Real.cos (Real.pi * d / 180) * p.2.2)
noncomputable def turnWest (d : ℝ) (p : ℝ × ℝ × ℝ) : ℝ × ℝ × ℝ :=
  (Real.cos (Real.pi * d / 180) * p.1 + Real.sin (Real.pi * d / 180) * p.2.1,
   -Real.sin (Real.pi * d / 180) * p.1 + Real.cos (Real.pi * d / 180) * p.2.1, p.2.2)

/-- C26: the latitude and longitude written for a node are those of the point of the regular grid tilted by the first and
turned westwards by the second angle. -/
theorem C26_points (nj ni : Nat) (hnj : 2 ≤ nj) (hni : 2 ≤ ni) (dlat dlon : ℝ) (c : List ℝ × List ℝ)
    (hc0 : nj * ni ≤ c.1.length) (hc1 : nj * ni ≤ c.2.length) :
    ∃ r, createRotatedPoleGrid nj ni dlat dlon c = .ok r ∧
      ∀ j i, j < nj → i < ni → ∃ lat lon, r.1[j * ni + i]? = some lat ∧ r.2[j * ni + i]? = some lon ∧
        onSphere lat lon = turnWest dlon (tilt dlat
          (onSphere (-90 + 180 * (j : ℝ) / ((nj : ℝ) - 1)) (-180 + 360 * (i : ℝ) / ((ni : ℝ) - 1)))) := by
  obtain ⟨r, h1, _, _, h4, _⟩ := fillNodes_spec nj ni
    (fun j i =>
      let xyz := rotatedPoint nj ni dlat dlon j i
      (((180 : Nat) : ℝ) * Trig.asin (xyz 2) / Trig.pi, ((180 : Nat) : ℝ) * Trig.atan2 (xyz 1) (xyz 0) / Trig.pi))
    c hc0 hc1
  refine ⟨r, h1, fun j i hj hi => ?_⟩
  obtain ⟨a, b⟩ := h4 j i hj hi
  refine ⟨_, _, a, b, ?_⟩
  obtain ⟨hs, hz1, hz2⟩ := C26_on_sphere nj ni hnj hni dlat dlon j i
  obtain ⟨x0, x1, x2⟩ := rotated_explicit nj ni dlat dlon j i
  have hpi := Real.pi_pos
  have e1 : Real.pi * (((180 : Nat) : ℝ) * Trig.asin (rotatedPoint nj ni dlat dlon j i 2) / Trig.pi) / 180
      = Real.arcsin (rotatedPoint nj ni dlat dlon j i 2) := by
    show Real.pi * (((180 : Nat) : ℝ) * Real.arcsin (rotatedPoint nj ni dlat dlon j i 2) / Real.pi) / 180 = _
    push_cast; field_simp
  have e2 : Real.pi * (((180 : Nat) : ℝ) * Trig.atan2 (rotatedPoint nj ni dlat dlon j i 1) (rotatedPoint nj ni dlat dlon j i 0)
      / Trig.pi) / 180 = Complex.arg ⟨rotatedPoint nj ni dlat dlon j i 0, rotatedPoint nj ni dlat dlon j i 1⟩ := by
    show Real.pi * (((180 : Nat) : ℝ) * Complex.arg ⟨rotatedPoint nj ni dlat dlon j i 0, rotatedPoint nj ni dlat dlon j i 1⟩
      / Real.pi) / 180 = _
    push_cast; field_simp
  have hrow : (rowLat nj j : ℝ) = -90 + 180 * (j : ℝ) / ((nj : ℝ) - 1) := by unfold rowLat; push_cast; ring
  have hcol : (colLon ni i : ℝ) = -180 + 360 * (i : ℝ) / ((ni : ℝ) - 1) := by unfold colLon; push_cast; ring
  rw [hrow, hcol] at x0 x1 x2
  unfold onSphere turnWest tilt
  dsimp only
  rw [e1, e2, Real.sin_arcsin hz1 hz2, Real.cos_arcsin]
  set x := rotatedPoint nj ni dlat dlon j i 0
  set y := rotatedPoint nj ni dlat dlon j i 1
  set z := rotatedPoint nj ni dlat dlon j i 2
  have hn : Real.sqrt (1 - z ^ 2) = ‖(⟨x, y⟩ : ℂ)‖ := by
    rw [Complex.norm_def, Complex.normSq_mk]
    congr 1
    linarith
  rw [hn]
  have hx : ‖(⟨x, y⟩ : ℂ)‖ * Real.cos (Complex.arg ⟨x, y⟩) = x := Complex.norm_mul_cos_arg ⟨x, y⟩
  have hy : ‖(⟨x, y⟩ : ℂ)‖ * Real.sin (Complex.arg ⟨x, y⟩) = y := Complex.norm_mul_sin_arg ⟨x, y⟩
  rw [hx, hy, x0, x1, x2]
  refine Prod.ext ?_ (Prod.ext ?_ ?_)
  · dsimp only; ring
  · dsimp only; ring
  · dsimp only

/-- C26: the north pole of the rotated grid, its last row, is at latitude `90 - dlat` and, if `dlat` is not 0 or 180, at
longitude `-dlon`, for tilts from 0 to 180 and turns from -180 to 180 degrees. -/
theorem C26_pole (nj ni : Nat) (hnj : 2 ≤ nj) (_hni : 2 ≤ ni) (dlat dlon : ℝ) (h0 : 0 ≤ dlat) (h1 : dlat ≤ 180) (h2 : -180 ≤ dlon)
    (h3 : dlon < 180) (c : List ℝ × List ℝ) (hc0 : nj * ni ≤ c.1.length) (hc1 : nj * ni ≤ c.2.length) :
    ∃ r, createRotatedPoleGrid nj ni dlat dlon c = .ok r ∧
      ∀ i, i < ni → r.1[(nj - 1) * ni + i]? = some (90 - dlat) ∧
        (0 < dlat → dlat < 180 → r.2[(nj - 1) * ni + i]? = some (-dlon)) := by
  obtain ⟨r, hr, _, _, h4, _⟩ := fillNodes_spec nj ni
    (fun j i =>
      let xyz := rotatedPoint nj ni dlat dlon j i
      (((180 : Nat) : ℝ) * Trig.asin (xyz 2) / Trig.pi, ((180 : Nat) : ℝ) * Trig.atan2 (xyz 1) (xyz 0) / Trig.pi))
    c hc0 hc1
  refine ⟨r, hr, fun i hi => ?_⟩
  obtain ⟨a, b⟩ := h4 (nj - 1) i (by omega) hi
  rw [a, b]
  have hpi := Real.pi_pos
  have hn : (0 : ℝ) < (nj : ℝ) - 1 := by
    have : ((1 : Nat) : ℝ) < (nj : ℝ) := by exact_mod_cast hnj
    rw [Nat.cast_one] at this; linarith
  obtain ⟨x0, x1, x2⟩ := rotated_explicit nj ni dlat dlon (nj - 1) i
  have hrow : Real.pi * (rowLat nj (nj - 1) : ℝ) / 180 = Real.pi / 2 := by
    unfold rowLat
    rw [Nat.cast_sub (by omega)]
    push_cast
    field_simp
    ring
  rw [hrow, Real.cos_pi_div_two, Real.sin_pi_div_two] at x0 x1 x2
  simp only [zero_mul, mul_zero, zero_add, mul_one, zero_sub] at x0 x1 x2
  dsimp only
  constructor
  · congr 1
    show ((180 : Nat) : ℝ) * Real.arcsin (rotatedPoint nj ni dlat dlon (nj - 1) i 2) / Real.pi = _
    have e : Real.cos (Real.pi * dlat / 180) = Real.sin (Real.pi / 2 - Real.pi * dlat / 180) := (Real.sin_pi_div_two_sub _).symm
    rw [x2, e, Real.arcsin_sin]
    · push_cast; field_simp; ring
    · have : Real.pi * dlat / 180 ≤ Real.pi := by rw [div_le_iff₀ (by norm_num)]; nlinarith
      linarith
    · have : 0 ≤ Real.pi * dlat / 180 := by positivity
      linarith
  · intro p0 p1
    congr 1
    show ((180 : Nat) : ℝ) * Complex.arg ⟨rotatedPoint nj ni dlat dlon (nj - 1) i 0, rotatedPoint nj ni dlat dlon (nj - 1) i 1⟩
      / Real.pi = _
    have hs : 0 < Real.sin (Real.pi * dlat / 180) :=
      Real.sin_pos_of_pos_of_lt_pi (by positivity) (by rw [div_lt_iff₀ (by norm_num)]; nlinarith)
    have hx : rotatedPoint nj ni dlat dlon (nj - 1) i 0 = Real.sin (Real.pi * dlat / 180) * Real.cos (-(Real.pi * dlon / 180)) := by
      rw [x0, Real.cos_neg]; ring
    have hy : rotatedPoint nj ni dlat dlon (nj - 1) i 1 = Real.sin (Real.pi * dlat / 180) * Real.sin (-(Real.pi * dlon / 180)) := by
      rw [x1, Real.sin_neg]; ring
    rw [hx, hy, arg_polar _ _ hs]
    · push_cast; field_simp
    · have : Real.pi * dlon / 180 < Real.pi := by rw [div_lt_iff₀ (by norm_num)]; nlinarith
      linarith
    · have : -Real.pi ≤ Real.pi * dlon / 180 := by rw [le_div_iff₀ (by norm_num)]; nlinarith
      linarith

/-! ### tripolar -/

section anyArith
variable {F : Type} [Add F] [Sub F] [Mul F] [Div F] [Neg F] [NatCast F] [IntCast F] [Trig F]

/-- C27: for every node counts whose product is a positive `int` and every cap index between 0 and the
number of latitudes, construction and `getGrid` perform no undefined operation and every one of the
`dims0 * dims1` entries is the node formula of its row and column, whatever the arithmetic. -/
theorem C27_tripolar_fill (dims0 dims1 cap : Nat) (hpos : 0 < dims0 * dims1)
    (hint : (dims0 * dims1 : Nat) ≤ 2147483647) (hcap : cap ≤ dims0) :
    ∃ t t' : Tripolar F, Tripolar.new dims0 dims1 cap = .ok t ∧ t.getGrid = .ok (dims1, dims0, t') ∧
      t'.lats.length = dims0 * dims1 ∧ t'.lons.length = dims0 * dims1 ∧
      ∀ i j, i < dims1 → j < dims0 →
        t'.lons[j * dims1 + i]? = some (scaled (tripolarNode dims1 dims0 cap i j : F × F).1) ∧
        t'.lats[j * dims1 + i]? = some (scaled (tripolarNode dims1 dims0 cap i j : F × F).2) := by
  have hn : (Tripolar.new dims0 dims1 cap : Cxx (Tripolar F)) =
      .ok { dims0 := dims0, dims1 := dims1, capLatIndex := cap,
            lats := List.replicate (dims0 * dims1) ((0 : Nat) : F),
            lons := List.replicate (dims0 * dims1) ((0 : Nat) : F) } := by
    unfold Tripolar.new imul chk
    have hc : inI32 ((dims0 : Int) * (dims1 : Int)) := by
      have : ((dims0 : Int) * (dims1 : Int)) = ((dims0 * dims1 : Nat) : Int) := by push_cast; rfl
      rw [this]; constructor <;> omega
    have e : ((dims0 : Int) * (dims1 : Int)).toNat = dims0 * dims1 := by
      rw [← Int.natCast_mul, Int.toNat_natCast]
    have ne : ¬ ((dims0 : Int) * (dims1 : Int) = 0) := by
      rw [← Int.natCast_mul]; omega
    simp only [hc, if_true, bind, Except.bind, ne, if_false, e]
  obtain ⟨t', h1, h2, h3, h4⟩ := getGrid_ok
    { dims0 := dims0, dims1 := dims1, capLatIndex := cap,
      lats := List.replicate (dims0 * dims1) ((0 : Nat) : F),
      lons := List.replicate (dims0 * dims1) ((0 : Nat) : F) } cap rfl hcap (by simp) (by simp)
  exact ⟨_, t', hn, h1, h2, h3, h4⟩

end anyArith

/-- C27: below the cap, the latitudes of row `j` are `-90 + 180 j/(rows-1)` degrees. -/
theorem C27_linear_below_cap (d0 d1 cap i j : Nat) (_h1 : 2 ≤ d1) (hj : j < cap) :
    scaled (tripolarNode d0 d1 cap i j : ℝ × ℝ).2 = -90 + 180 * (j : ℝ) / ((d1 : ℝ) - 1) := by
  unfold tripolarNode
  rw [if_pos hj]
  unfold lowerNode scaled
  dsimp only
  show (-(((1 : Nat) : ℝ) / ((2 : Nat) : ℝ)) * Real.pi + ((j : Int) : ℝ) * (Real.pi / (((d1 : Int) - 1 : Int) : ℝ)))
    * (((180 : Nat) : ℝ) / Real.pi) = _
  have hpi := Real.pi_pos
  push_cast
  field_simp
  ring

/-- C27: a negative cap index writes before the arrays as soon as there are two columns. -/
theorem C27_negative_cap_undefined :
    ∃ t : Tripolar ℝ, Tripolar.new 2 2 (-1) = .ok t ∧ t.getGrid = .error .outOfBounds := by
  refine ⟨_, rfl, rfl⟩

/-! Hypotheses are met. -/
example : (3 * 4 ≤ (List.replicate 12 (0 : ℚ)).length) ∧ (0 < 5 * 8) ∧ (5 * 8 ≤ 2147483647) ∧ 3 ≤ 5 := by decide

example : createRectangularGrid 2 3 ((0, 0) : ℚ × ℚ) (1, 4) (List.replicate 6 0, List.replicate 6 0)
    = .ok ([0, 0, 0, 1, 1, 1], [0, 2, 4, 0, 2, 4]) := by decide +kernel

end Sg.Props
