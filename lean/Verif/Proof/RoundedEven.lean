import Verif.Proof.Rounded
import Verif.Spec.DataSigns
/-
Rounding to the nearest number with a given number of binary digits, halves to the even neighbour: error, exact cases, order, signs.
-/
namespace Sg.Spec

noncomputable section

theorem roundEven_intCast (n : ℤ) : roundEven (n : ℝ) = n := by
  unfold roundEven
  rw [Int.fract_intCast, if_pos (by norm_num), Int.floor_intCast]

theorem floor_le_roundEven (y : ℝ) : ⌊y⌋ ≤ roundEven y := by
  unfold roundEven
  split_ifs <;> omega

theorem roundEven_le_floor (y : ℝ) : roundEven y ≤ ⌊y⌋ + 1 := by
  unfold roundEven
  split_ifs <;> omega

theorem roundEven_mono {x y : ℝ} (h : x ≤ y) : roundEven x ≤ roundEven y := by
  rcases (Int.floor_mono h).eq_or_lt with e | e
  · have hf : Int.fract x ≤ Int.fract y := by
      have a := Int.floor_add_fract x
      have b := Int.floor_add_fract y
      rw [e] at a
      linarith
    unfold roundEven
    rw [e]
    split_ifs <;> first | omega | (exfalso; linarith)
  · have a := roundEven_le_floor x
    have b := floor_le_roundEven y
    omega

theorem abs_sub_roundEven (y : ℝ) : |y - roundEven y| ≤ 1 / 2 := by
  have a := Int.floor_add_fract y
  have h0 := Int.fract_nonneg y
  have h1 := Int.fract_lt_one y
  unfold roundEven
  split_ifs <;> rw [abs_le] <;> push_cast <;> constructor <;> linarith

theorem roundEven_zero : roundEven 0 = 0 := by simpa using roundEven_intCast 0

theorem roundEven_le_of {x : ℝ} {n : ℤ} (h : x ≤ n) : roundEven x ≤ n := by
  rw [← roundEven_intCast n]; exact roundEven_mono h

theorem le_roundEven_of {x : ℝ} {n : ℤ} (h : (n : ℝ) ≤ x) : n ≤ roundEven x := by
  rw [← roundEven_intCast n]; exact roundEven_mono h

theorem roundEven_neg (y : ℝ) : roundEven (-y) = -roundEven y := by
  by_cases hy : Int.fract y = 0
  · have e1 : y = ⌊y⌋ := by have := Int.floor_add_fract y; rw [hy, add_zero] at this; exact this.symm
    rw [e1, ← Int.cast_neg, roundEven_intCast, roundEven_intCast]
  · have h1 : Int.fract (-y) = 1 - Int.fract y := Int.fract_neg hy
    have h2 : ⌊-y⌋ = -⌊y⌋ - 1 := by
      have a := Int.floor_add_fract y
      have b := Int.floor_add_fract (-y)
      rw [h1] at b
      have : (⌊-y⌋ : ℝ) = ((-⌊y⌋ - 1 : ℤ) : ℝ) := by push_cast; linarith
      exact_mod_cast this
    have h3 : Even (-⌊y⌋ - 1) ↔ ¬ Even ⌊y⌋ := by rw [Int.even_sub_one, even_neg]
    unfold roundEven
    rw [h1, h2]
    simp only [h3]
    split_ifs <;> first | omega | (exfalso; linarith)

/-- It has relative error at most `2^-p`. -/
theorem nearestEven_rounds (p : Nat) : Rounds (nearestEven p) (2 ^ (-(p : ℤ))) 0 where
  rel := by positivity
  abs := le_rfl
  err x := by
    rw [add_zero]
    by_cases hx : x = 0
    · subst hx; simp [nearestEven, roundEven_zero]
    have hpos : 0 < |x| := abs_pos.mpr hx
    have hl := Int.zpow_log_le_self (b := 2) (by norm_num) hpos
    push_cast at hl
    have hc := ulp_pos p x
    have h1 := abs_sub_roundEven (x / ulp p x)
    have hx' : x / ulp p x * ulp p x = x := div_mul_cancel₀ _ hc.ne'
    have h3 : |nearestEven p x - x| ≤ 1 / 2 * ulp p x := by
      have : nearestEven p x - x = -((x / ulp p x - roundEven (x / ulp p x)) * ulp p x) := by
        rw [sub_mul, hx']; unfold nearestEven; ring
      rw [this, abs_neg, abs_mul, abs_of_pos hc]
      exact mul_le_mul_of_nonneg_right h1 hc.le
    refine h3.trans ?_
    have : 1 / 2 * ulp p x = 2 ^ (-(p : ℤ)) * 2 ^ Int.log 2 |x| := by
      unfold ulp
      rw [← zpow_add₀ (by norm_num), show (1 / 2 : ℝ) = 2 ^ (-1 : ℤ) by norm_num, ← zpow_add₀ (by norm_num)]
      congr 1
      ring
    rw [this]
    exact mul_le_mul_of_nonneg_left hl (by positivity)

theorem nearestEven_zero (p : Nat) : nearestEven p 0 = 0 := by simp [nearestEven, roundEven_zero]

/-- Numbers with `p` binary digits are not changed. -/
theorem nearestEven_exact {p : Nat} {m k : ℤ} (hm : |m| < 2 ^ p) : nearestEven p (m * 2 ^ k) = m * 2 ^ k := by
  by_cases h0 : m = 0
  · subst h0; simp [nearestEven, roundEven_zero]
  have hmr : (0 : ℝ) < |(m : ℝ)| := abs_pos.mpr (by exact_mod_cast h0)
  have habs : |(m : ℝ) * 2 ^ k| = |(m : ℝ)| * 2 ^ k := by rw [abs_mul, abs_of_pos (show (0 : ℝ) < 2 ^ k by positivity)]
  have hlog : Int.log 2 |(m : ℝ) * 2 ^ k| < p + k := by
    rw [← Int.lt_zpow_iff_log_lt (by norm_num) (by rw [habs]; positivity), habs]
    push_cast
    rw [zpow_add₀ (by norm_num)]
    refine mul_lt_mul_of_pos_right ?_ (by positivity)
    rw [zpow_natCast]
    exact_mod_cast hm
  unfold nearestEven ulp
  set e := Int.log 2 |(m : ℝ) * 2 ^ k|
  obtain ⟨j, hj⟩ : ∃ j : ℕ, k - (e + 1 - p) = j := ⟨(k - (e + 1 - p)).toNat, (Int.toNat_of_nonneg (by omega)).symm⟩
  have hq : (m : ℝ) * 2 ^ k / 2 ^ (e + 1 - p) = ((m * 2 ^ j : ℤ) : ℝ) := by
    rw [mul_div_assoc, ← zpow_sub₀ (by norm_num), hj]
    push_cast
    rw [zpow_natCast]
  rw [hq, roundEven_intCast, ← hq, div_mul_cancel₀ _ (by positivity)]

/-- Rounded numbers stay between the powers of two around them. -/
theorem nearestEven_between {p : Nat} (hp : 1 ≤ p) {x : ℝ} (h : x ≠ 0) :
    (0 < x → 2 ^ Int.log 2 |x| ≤ nearestEven p x ∧ nearestEven p x ≤ 2 ^ (Int.log 2 |x| + 1)) ∧
    (x < 0 → -2 ^ (Int.log 2 |x| + 1) ≤ nearestEven p x ∧ nearestEven p x ≤ -2 ^ Int.log 2 |x|) := by
  obtain ⟨h1, h2⟩ := log_bounds h
  have hc := ulp_pos p x
  have hp1 := pow_ulp p x
  have hp0 : (2 : ℝ) ^ (p - 1) * ulp p x = 2 ^ Int.log 2 |x| := by
    have e : (2 : ℝ) ^ p = 2 * 2 ^ (p - 1) := by rw [← pow_succ']; congr 1; omega
    rw [e, zpow_add₀ (by norm_num), zpow_one] at hp1
    linarith
  rw [← hp0] at h1
  rw [← hp1] at h2
  constructor
  · intro hx
    rw [abs_of_pos hx] at h1 h2
    rw [← hp0, ← hp1]
    unfold nearestEven
    have a1 : ((2 ^ (p - 1) : ℤ) : ℝ) ≤ x / ulp p x := by push_cast; rwa [le_div_iff₀ hc]
    have a2 : x / ulp p x ≤ ((2 ^ p : ℤ) : ℝ) := by push_cast; rw [div_le_iff₀ hc]; exact h2.le
    have b1 : ((2 ^ (p - 1) : ℤ) : ℝ) ≤ (roundEven (x / ulp p x) : ℝ) := by exact_mod_cast le_roundEven_of a1
    have b2 : (roundEven (x / ulp p x) : ℝ) ≤ ((2 ^ p : ℤ) : ℝ) := by exact_mod_cast roundEven_le_of a2
    push_cast at b1 b2
    exact ⟨mul_le_mul_of_nonneg_right b1 hc.le, mul_le_mul_of_nonneg_right b2 hc.le⟩
  · intro hx
    rw [abs_of_neg hx] at h1 h2
    rw [← hp0, ← hp1, ← neg_mul, ← neg_mul]
    unfold nearestEven
    have a1 : ((-2 ^ p : ℤ) : ℝ) ≤ x / ulp p x := by push_cast; rw [le_div_iff₀ hc]; linarith
    have a2 : x / ulp p x ≤ ((-2 ^ (p - 1) : ℤ) : ℝ) := by push_cast; rw [div_le_iff₀ hc]; linarith
    have b1 : ((-2 ^ p : ℤ) : ℝ) ≤ (roundEven (x / ulp p x) : ℝ) := by exact_mod_cast le_roundEven_of a1
    have b2 : (roundEven (x / ulp p x) : ℝ) ≤ ((-2 ^ (p - 1) : ℤ) : ℝ) := by exact_mod_cast roundEven_le_of a2
    push_cast at b1 b2
    exact ⟨mul_le_mul_of_nonneg_right b1 hc.le, mul_le_mul_of_nonneg_right b2 hc.le⟩

/-- Rounding keeps the order. -/
theorem nearestEven_mono {p : Nat} (hp : 1 ≤ p) : Monotone (nearestEven p) := by
  have pos : ∀ x, 0 ≤ x → 0 ≤ nearestEven p x := by
    intro x hx
    rcases hx.eq_or_lt with rfl | hx
    · rw [nearestEven_zero]
    · exact (by positivity : (0 : ℝ) ≤ 2 ^ Int.log 2 |x|).trans ((nearestEven_between hp hx.ne').1 hx).1
  have neg : ∀ x, x ≤ 0 → nearestEven p x ≤ 0 := by
    intro x hx
    rcases hx.eq_or_lt with rfl | hx
    · rw [nearestEven_zero]
    · refine ((nearestEven_between hp hx.ne).2 hx).2.trans ?_
      have : (0 : ℝ) < 2 ^ Int.log 2 |x| := by positivity
      linarith
  have same : ∀ x y, x ≤ y → Int.log 2 |x| = Int.log 2 |y| → nearestEven p x ≤ nearestEven p y := by
    intro x y h e
    have hu : ulp p x = ulp p y := by unfold ulp; rw [e]
    unfold nearestEven
    rw [hu]
    refine mul_le_mul_of_nonneg_right ?_ (ulp_pos p y).le
    exact_mod_cast roundEven_mono (div_le_div_of_nonneg_right h (ulp_pos p y).le)
  intro x y h
  rcases le_or_gt x 0 with hx | hx
  · rcases le_or_gt 0 y with hy | hy
    · exact (neg x hx).trans (pos y hy)
    · have hx : x < 0 := h.trans_lt hy
      have hle : Int.log 2 |y| ≤ Int.log 2 |x| :=
        Int.log_mono_right (abs_pos.mpr hy.ne) (by rw [abs_of_neg hx, abs_of_neg hy]; linarith)
      rcases hle.eq_or_lt with e | hlt
      · exact same x y h e.symm
      · refine ((nearestEven_between hp hx.ne).2 hx).2.trans (le_trans ?_ ((nearestEven_between hp hy.ne).2 hy).1)
        exact neg_le_neg (zpow_le_zpow_right₀ (by norm_num) (by omega))
  · have hy : 0 < y := hx.trans_le h
    have hle : Int.log 2 |x| ≤ Int.log 2 |y| :=
      Int.log_mono_right (abs_pos.mpr hx.ne') (by rw [abs_of_pos hx, abs_of_pos hy]; linarith)
    rcases hle.eq_or_lt with e | hlt
    · exact same x y h e
    · refine ((nearestEven_between hp hx.ne').1 hx).2.trans (le_trans ?_ ((nearestEven_between hp hy.ne').1 hy).1)
      exact zpow_le_zpow_right₀ (by norm_num) (by omega)

/-- Both signs are treated alike. -/
theorem nearestEven_bothSigns (p : Nat) : BothSigns (nearestEven p) := by
  intro x
  have hu : ulp p (-x) = ulp p x := by unfold ulp; rw [abs_neg]
  unfold nearestEven
  rw [hu, neg_div, roundEven_neg]
  push_cast
  ring

end

end Sg.Spec
