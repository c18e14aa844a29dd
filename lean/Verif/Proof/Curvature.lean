import Verif.Spec.Curvature
import Verif.Proof.Tensor
import Mathlib.Analysis.Convex.Deriv
/-
The error of interpolation on a sheared product grid.
-/
namespace Sg.FlowInterp
open Sg.Spec Sg.Plane

/-- Functions with a second derivative. -/
theorem bends_of_deriv {M : ℝ} {f f' f'' : ℝ → ℝ} {a b : ℝ} (h1 : ∀ t, HasDerivAt f (f' t) t) (h2 : ∀ t, HasDerivAt f' (f'' t) t)
    (hM : ∀ t, a ≤ t → t ≤ b → |f'' t| ≤ M) : BendsAtMost M f a b := by
  have e1 : ∀ t : ℝ, HasDerivAt (fun t : ℝ => M / 2 * t ^ 2) (M * t) t := fun t => by
    have := (hasDerivAt_pow 2 t).const_mul (M / 2)
    have e : M / 2 * (((2 : ℕ) : ℝ) * t ^ (2 - 1)) = M * t := by norm_num; ring
    rwa [e] at this
  have e2 : ∀ t : ℝ, HasDerivAt (fun t : ℝ => M * t) M t := fun t => by
    simpa using (hasDerivAt_id t).const_mul M
  constructor
  · refine convexOn_of_hasDerivWithinAt2_nonneg (f' := fun t => M * t + f' t) (f'' := fun t => M + f'' t) (convex_Icc a b) ?_ ?_ ?_ ?_
    · exact fun t _ => ((e1 t).add (h1 t)).continuousAt.continuousWithinAt
    · exact fun t _ => ((e1 t).add (h1 t)).hasDerivWithinAt
    · exact fun t _ => ((e2 t).add (h2 t)).hasDerivWithinAt
    · intro t ht
      have := interior_subset ht
      linarith [(abs_le.mp (hM t this.1 this.2)).1]
  · refine convexOn_of_hasDerivWithinAt2_nonneg (f' := fun t => M * t - f' t) (f'' := fun t => M - f'' t) (convex_Icc a b) ?_ ?_ ?_ ?_
    · exact fun t _ => ((e1 t).sub (h1 t)).continuousAt.continuousWithinAt
    · exact fun t _ => ((e1 t).sub (h1 t)).hasDerivWithinAt
    · exact fun t _ => ((e2 t).sub (h2 t)).hasDerivWithinAt
    · intro t ht
      have := interior_subset ht
      linarith [(abs_le.mp (hM t this.1 this.2)).2]

/-- The error of linear interpolation between two points. -/
theorem chord_error {M : ℝ} (hM : 0 ≤ M) {f : ℝ → ℝ} {a b x y h : ℝ} (hf : BendsAtMost M f a b) (hx : a ≤ x) (hxy : x ≤ y) (hy : y ≤ b) (hh : y - x ≤ h)
    {t : ℝ} (h0 : 0 ≤ t) (h1 : t ≤ 1) : |(1 - t) * f x + t * f y - f (x + t * (y - x))| ≤ M * h ^ 2 / 8 := by
  have hxm : x ∈ Set.Icc a b := ⟨hx, hxy.trans hy⟩
  have hym : y ∈ Set.Icc a b := ⟨hx.trans hxy, hy⟩
  have k1 := hf.up.2 hxm hym (sub_nonneg.2 h1) h0 (by ring)
  have k2 := hf.down.2 hxm hym (sub_nonneg.2 h1) h0 (by ring)
  simp only [smul_eq_mul] at k1 k2
  have e : (1 - t) * x + t * y = x + t * (y - x) := by ring
  rw [e] at k1 k2
  have q : M / 2 * ((1 - t) * x ^ 2 + t * y ^ 2 - (x + t * (y - x)) ^ 2) ≤ M * h ^ 2 / 8 := by
    have e2 : (1 - t) * x ^ 2 + t * y ^ 2 - (x + t * (y - x)) ^ 2 = t * (1 - t) * (y - x) ^ 2 := by ring
    rw [e2]
    have q1 : t * (1 - t) ≤ 1 / 4 := by nlinarith [sq_nonneg (2 * t - 1)]
    have q2 : (y - x) ^ 2 ≤ h ^ 2 := by nlinarith
    have q3 : t * (1 - t) * (y - x) ^ 2 ≤ 1 / 4 * h ^ 2 := mul_le_mul q1 q2 (sq_nonneg _) (by norm_num)
    nlinarith
  rw [abs_le]
  constructor <;> linarith

/-- The error of piecewise linear interpolation. -/
theorem pl_error {m : Nat} (hm : 1 ≤ m) {X : Nat → ℝ} (hX : ∀ i, i < m → X i < X (i + 1)) {M h : ℝ} (hM : 0 ≤ M) (hh : ∀ i, i < m → X (i + 1) - X i ≤ h)
    {f : ℝ → ℝ} (hf : BendsAtMost M f (X 0) (X m)) {u : ℝ} (h0 : X 0 ≤ u) (h1 : u ≤ X m) :
    |piecewiseLinear m X (fun i => f (X i)) u - f u| ≤ M * h ^ 2 / 8 := by
  obtain ⟨i, hi, a, b⟩ := exists_cell hm h0 h1
  have hd := sub_pos.mpr (hX i hi)
  have eu : u = X i + (u - X i) / (X (i + 1) - X i) * (X (i + 1) - X i) := by field_simp; ring
  have t0 : 0 ≤ (u - X i) / (X (i + 1) - X i) := div_nonneg (by linarith) hd.le
  have t1 : (u - X i) / (X (i + 1) - X i) ≤ 1 := (div_le_one hd).2 (by linarith)
  generalize (u - X i) / (X (i + 1) - X i) = t at *
  rw [eu, pl_cell hX _ hi t0 t1]
  exact chord_error hM hf (inc_le hX (Nat.zero_le i) hi.le) (hX i hi).le (inc_le hX hi le_rfl) (hh i hi) t0 t1

/-- Interpolation of nearby values. -/
theorem pl_near {m : Nat} (hm : 1 ≤ m) {X : Nat → ℝ} (hX : ∀ i, i < m → X i < X (i + 1)) {f g : Nat → ℝ} {ε : ℝ} (hfg : ∀ i ≤ m, |f i - g i| ≤ ε)
    {u : ℝ} (h0 : X 0 ≤ u) (h1 : u ≤ X m) : |piecewiseLinear m X f u - piecewiseLinear m X g u| ≤ ε := by
  obtain ⟨i, hi, a, b⟩ := exists_cell hm h0 h1
  have hd := sub_pos.mpr (hX i hi)
  have eu : u = X i + (u - X i) / (X (i + 1) - X i) * (X (i + 1) - X i) := by field_simp; ring
  have t0 : 0 ≤ (u - X i) / (X (i + 1) - X i) := div_nonneg (by linarith) hd.le
  have t1 : (u - X i) / (X (i + 1) - X i) ≤ 1 := (div_le_one hd).2 (by linarith)
  generalize (u - X i) / (X (i + 1) - X i) = t at *
  rw [eu, pl_cell hX _ hi t0 t1, pl_cell hX _ hi t0 t1]
  have a1 := abs_le.mp (hfg i hi.le)
  have a2 := abs_le.mp (hfg (i + 1) hi)
  rw [abs_le]
  constructor <;> nlinarith

/-- The error of interpolation on a sheared product grid. -/
theorem tensor_error {n0 n1 : Nat} {X Y : Nat → ℝ} {c e0 e1 : P2} (h0 : 2 ≤ n0) (h1 : 2 ≤ n1) (hX : ∀ i, i + 1 < n0 → X i < X (i + 1))
    (hY : ∀ j, j + 1 < n1 → Y j < Y (j + 1)) {w0 w1 : ℝ} (hw : WidthsAtMost n0 n1 X Y w0 w1) {ψ : P2 → ℝ} {M0 M1 : ℝ} (hM0 : 0 ≤ M0) (hM1 : 0 ≤ M1)
    (hψ : BendsOn n0 n1 X Y c e0 e1 ψ M0 M1) {phi : Nat → Nat → ℝ} (hphi : ∀ i j, i < n0 → j < n1 → phi i j = ψ (c + X i • e0 + Y j • e1))
    {u v : ℝ} (hu : X 0 ≤ u ∧ u ≤ X (n0 - 1)) (hv : Y 0 ≤ v ∧ v ≤ Y (n1 - 1)) :
    |tensorInterp n0 n1 X Y phi u v - ψ (c + u • e0 + v • e1)| ≤ (M0 * w0 ^ 2 + M1 * w1 ^ 2) / 8 := by
  have hX' : ∀ i, i < n0 - 1 → X i < X (i + 1) := fun i hi => hX i (by omega)
  have hY' : ∀ i, i < n1 - 1 → Y i < Y (i + 1) := fun i hi => hY i (by omega)
  have a := pl_near (by omega) hY' (f := fun j => piecewiseLinear (n0 - 1) X (fun i => phi i j) u) (g := fun j => ψ (c + u • e0 + Y j • e1))
    (ε := M0 * w0 ^ 2 / 8) (by
      intro j hj
      have := pl_error (by omega) hX' hM0 (fun i hi => hw.first i (by omega))
        (hψ.first (Y j) (inc_le hY' (Nat.zero_le j) hj) (inc_le hY' hj le_rfl)) hu.1 hu.2
      have e : piecewiseLinear (n0 - 1) X (fun i => phi i j) u = piecewiseLinear (n0 - 1) X (fun i => ψ (c + X i • e0 + Y j • e1)) u := by
        unfold piecewiseLinear
        beta_reduce
        rw [hphi 0 j (by omega) (by omega)]
        congr 1
        refine Finset.sum_congr rfl fun i hi => ?_
        rw [Finset.mem_range] at hi
        rw [hphi i j (by omega) (by omega), hphi (i + 1) j (by omega) (by omega)]
      beta_reduce
      rw [e]
      exact this) hv.1 hv.2
  have b := pl_error (by omega) hY' hM1 (fun i hi => hw.second i (by omega)) (hψ.second u hu.1 hu.2) hv.1 hv.2
  beta_reduce at b
  unfold tensorInterp
  rw [abs_le] at a b ⊢
  constructor <;> linarith [a.1, a.2, b.1, b.2]

end Sg.FlowInterp
