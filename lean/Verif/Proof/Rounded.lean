import Verif.Spec.Rounded
/-
Rounding to the nearest number with a given number of binary digits: error, exact cases, order.
-/
namespace Sg.Spec

noncomputable section

theorem round_mono {x y : ℝ} (h : x ≤ y) : round x ≤ round y := by
  rw [round_eq, round_eq]; exact Int.floor_mono (by linarith)

theorem ulp_pos (p : Nat) (x : ℝ) : 0 < ulp p x := by unfold ulp; positivity

/-- It has relative error at most `2^-p`. -/
theorem nearest_rounds (p : Nat) : Rounds (nearest p) (2 ^ (-(p : ℤ))) 0 where
  rel := by positivity
  abs := le_rfl
  err x := by
    rw [add_zero]
    by_cases hx : x = 0
    · subst hx; simp [nearest]
    have hpos : 0 < |x| := abs_pos.mpr hx
    have hl := Int.zpow_log_le_self (b := 2) (by norm_num) hpos
    push_cast at hl
    have hc := ulp_pos p x
    have h1 := abs_sub_round (x / ulp p x)
    have hx' : x / ulp p x * ulp p x = x := div_mul_cancel₀ _ hc.ne'
    have h3 : |nearest p x - x| ≤ 1 / 2 * ulp p x := by
      have : nearest p x - x = -((x / ulp p x - round (x / ulp p x)) * ulp p x) := by
        rw [sub_mul, hx']; unfold nearest; ring
      rw [this, abs_neg, abs_mul, abs_of_pos hc]
      exact mul_le_mul_of_nonneg_right h1 hc.le
    refine h3.trans ?_
    have : 1 / 2 * ulp p x = 2 ^ (-(p : ℤ)) * 2 ^ Int.log 2 |x| := by
      unfold ulp
      rw [← zpow_add₀ (by norm_num), show (1 / 2 : ℝ) = 2 ^ (-1 : ℤ) by norm_num, ← zpow_add₀ (by norm_num)]
      congr 1
      ring
    rw [this]
    exact mul_le_mul_of_nonneg_left hl (by positivity)

theorem nearest_zero (p : Nat) : nearest p 0 = 0 := by simp [nearest]

/-- Numbers with `p` binary digits are not changed. -/
theorem nearest_exact {p : Nat} {m k : ℤ} (hm : |m| < 2 ^ p) : nearest p (m * 2 ^ k) = m * 2 ^ k := by
  by_cases h0 : m = 0
  · subst h0; simp [nearest]
  have hmr : (0 : ℝ) < |(m : ℝ)| := abs_pos.mpr (by exact_mod_cast h0)
  have habs : |(m : ℝ) * 2 ^ k| = |(m : ℝ)| * 2 ^ k := by rw [abs_mul, abs_of_pos (show (0 : ℝ) < 2 ^ k by positivity)]
  have hlog : Int.log 2 |(m : ℝ) * 2 ^ k| < p + k := by
    rw [← Int.lt_zpow_iff_log_lt (by norm_num) (by rw [habs]; positivity), habs]
    push_cast
    rw [zpow_add₀ (by norm_num)]
    refine mul_lt_mul_of_pos_right ?_ (by positivity)
    rw [zpow_natCast]
    exact_mod_cast hm
  unfold nearest ulp
  set e := Int.log 2 |(m : ℝ) * 2 ^ k|
  obtain ⟨j, hj⟩ : ∃ j : ℕ, k - (e + 1 - p) = j := ⟨(k - (e + 1 - p)).toNat, (Int.toNat_of_nonneg (by omega)).symm⟩
  have hq : (m : ℝ) * 2 ^ k / 2 ^ (e + 1 - p) = ((m * 2 ^ j : ℤ) : ℝ) := by
    rw [mul_div_assoc, ← zpow_sub₀ (by norm_num), hj]
    push_cast
    rw [zpow_natCast]
  rw [hq, round_intCast, ← hq, div_mul_cancel₀ _ (by positivity)]

theorem round_le_of {x : ℝ} {n : ℤ} (h : x ≤ n) : round x ≤ n := by
  rw [← round_intCast (α := ℝ) n]; exact round_mono h

theorem le_round_of {x : ℝ} {n : ℤ} (h : (n : ℝ) ≤ x) : n ≤ round x := by
  rw [← round_intCast (α := ℝ) n]; exact round_mono h

theorem log_bounds {x : ℝ} (h : x ≠ 0) : 2 ^ Int.log 2 |x| ≤ |x| ∧ |x| < 2 ^ (Int.log 2 |x| + 1) := by
  have h' : 0 < |x| := abs_pos.mpr h
  have h1 := Int.zpow_log_le_self (b := 2) (by norm_num) h'
  have h2 := Int.lt_zpow_succ_log_self (b := 2) (by norm_num) |x|
  push_cast at h1 h2
  exact ⟨h1, h2⟩

theorem pow_ulp (p : Nat) (x : ℝ) : (2 : ℝ) ^ p * ulp p x = 2 ^ (Int.log 2 |x| + 1) := by
  unfold ulp
  rw [← zpow_natCast, ← zpow_add₀ (by norm_num)]
  congr 1
  ring

/-- A way to compute. -/
theorem nearest_eq {p : Nat} {x : ℝ} {e m : ℤ} (h1 : 2 ^ e ≤ x) (h2 : x < 2 ^ (e + 1)) (h3 : (m : ℝ) - 1 / 2 ≤ x / 2 ^ (e + 1 - p))
    (h4 : x / 2 ^ (e + 1 - p) < (m : ℝ) + 1 / 2) : nearest p x = m * 2 ^ (e + 1 - p) := by
  have hx : 0 < x := lt_of_lt_of_le (by positivity) h1
  have hl : Int.log 2 |x| = e := by
    rw [abs_of_pos hx]
    have a := (Int.zpow_le_iff_le_log (b := 2) (r := x) (x := e) (by norm_num) hx).mp (by push_cast; exact h1)
    have b := (Int.lt_zpow_iff_log_lt (b := 2) (r := x) (x := e + 1) (by norm_num) hx).mp (by push_cast; exact h2)
    omega
  have hr : round (x / 2 ^ (e + 1 - p)) = m := by
    rw [round_eq, Int.floor_eq_iff]
    constructor <;> linarith
  unfold nearest ulp
  rw [hl, hr]

/-- Rounded numbers stay between the powers of two around them. -/
theorem nearest_between {p : Nat} (hp : 1 ≤ p) {x : ℝ} (h : x ≠ 0) :
    (0 < x → 2 ^ Int.log 2 |x| ≤ nearest p x ∧ nearest p x ≤ 2 ^ (Int.log 2 |x| + 1)) ∧
    (x < 0 → -2 ^ (Int.log 2 |x| + 1) ≤ nearest p x ∧ nearest p x ≤ -2 ^ Int.log 2 |x|) := by
  obtain ⟨h1, h2⟩ := log_bounds h
  have hc := ulp_pos p x
  have hp1 := pow_ulp p x
  have hp0 : (2 : ℝ) ^ (p - 1) * ulp p x = 2 ^ Int.log 2 |x| := by
    have e : (2 : ℝ) ^ p = 2 * 2 ^ (p - 1) := by rw [← pow_succ']; congr 1; omega
    rw [e, zpow_add₀ (by norm_num), zpow_one] at hp1
    linarith
  rw [← hp0] at h1
  rw [← hp1] at h2
  constructor
  · intro hx
    rw [abs_of_pos hx] at h1 h2
    rw [← hp0, ← hp1]
    unfold nearest
    have a1 : ((2 ^ (p - 1) : ℤ) : ℝ) ≤ x / ulp p x := by push_cast; rwa [le_div_iff₀ hc]
    have a2 : x / ulp p x ≤ ((2 ^ p : ℤ) : ℝ) := by push_cast; rw [div_le_iff₀ hc]; exact h2.le
    have b1 : ((2 ^ (p - 1) : ℤ) : ℝ) ≤ (round (x / ulp p x) : ℝ) := by exact_mod_cast le_round_of a1
    have b2 : (round (x / ulp p x) : ℝ) ≤ ((2 ^ p : ℤ) : ℝ) := by exact_mod_cast round_le_of a2
    push_cast at b1 b2
    exact ⟨mul_le_mul_of_nonneg_right b1 hc.le, mul_le_mul_of_nonneg_right b2 hc.le⟩
  · intro hx
    rw [abs_of_neg hx] at h1 h2
    rw [← hp0, ← hp1, ← neg_mul, ← neg_mul]
    unfold nearest
    have a1 : ((-2 ^ p : ℤ) : ℝ) ≤ x / ulp p x := by push_cast; rw [le_div_iff₀ hc]; linarith
    have a2 : x / ulp p x ≤ ((-2 ^ (p - 1) : ℤ) : ℝ) := by push_cast; rw [div_le_iff₀ hc]; linarith
    have b1 : ((-2 ^ p : ℤ) : ℝ) ≤ (round (x / ulp p x) : ℝ) := by exact_mod_cast le_round_of a1
    have b2 : (round (x / ulp p x) : ℝ) ≤ ((-2 ^ (p - 1) : ℤ) : ℝ) := by exact_mod_cast round_le_of a2
    push_cast at b1 b2
    exact ⟨mul_le_mul_of_nonneg_right b1 hc.le, mul_le_mul_of_nonneg_right b2 hc.le⟩

/-- Rounding keeps the order. -/
theorem nearest_mono {p : Nat} (hp : 1 ≤ p) : Monotone (nearest p) := by
  have pos : ∀ x, 0 ≤ x → 0 ≤ nearest p x := by
    intro x hx
    rcases hx.eq_or_lt with rfl | hx
    · rw [nearest_zero]
    · exact (by positivity : (0 : ℝ) ≤ 2 ^ Int.log 2 |x|).trans ((nearest_between hp hx.ne').1 hx).1
  have neg : ∀ x, x ≤ 0 → nearest p x ≤ 0 := by
    intro x hx
    rcases hx.eq_or_lt with rfl | hx
    · rw [nearest_zero]
    · refine ((nearest_between hp hx.ne).2 hx).2.trans ?_
      have : (0 : ℝ) < 2 ^ Int.log 2 |x| := by positivity
      linarith
  have same : ∀ x y, x ≤ y → Int.log 2 |x| = Int.log 2 |y| → nearest p x ≤ nearest p y := by
    intro x y h e
    have hu : ulp p x = ulp p y := by unfold ulp; rw [e]
    unfold nearest
    rw [hu]
    refine mul_le_mul_of_nonneg_right ?_ (ulp_pos p y).le
    exact_mod_cast round_mono (div_le_div_of_nonneg_right h (ulp_pos p y).le)
  intro x y h
  rcases le_or_gt x 0 with hx | hx
  · rcases le_or_gt 0 y with hy | hy
    · exact (neg x hx).trans (pos y hy)
    · have hx : x < 0 := h.trans_lt hy
      have hle : Int.log 2 |y| ≤ Int.log 2 |x| :=
        Int.log_mono_right (abs_pos.mpr hy.ne) (by rw [abs_of_neg hx, abs_of_neg hy]; linarith)
      rcases hle.eq_or_lt with e | hlt
      · exact same x y h e.symm
      · refine ((nearest_between hp hx.ne).2 hx).2.trans (le_trans ?_ ((nearest_between hp hy.ne).2 hy).1)
        exact neg_le_neg (zpow_le_zpow_right₀ (by norm_num) (by omega))
  · have hy : 0 < y := hx.trans_le h
    have hle : Int.log 2 |x| ≤ Int.log 2 |y| :=
      Int.log_mono_right (abs_pos.mpr hx.ne') (by rw [abs_of_pos hx, abs_of_pos hy]; linarith)
    rcases hle.eq_or_lt with e | hlt
    · exact same x y h e
    · refine ((nearest_between hp hx.ne').1 hx).2.trans (le_trans ?_ ((nearest_between hp hy.ne').1 hy).1)
      exact zpow_le_zpow_right₀ (by norm_num) (by omega)

end

end Sg.Spec
