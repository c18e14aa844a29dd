import Verif.Spec.Double
import Mathlib.Tactic.Linarith
import Mathlib.Tactic.FieldSimp
import Mathlib.Tactic.NormNum
import Mathlib.Tactic.Push
import Mathlib.Algebra.Order.Field.Power
/-
The rounding of `Spec/Double` is what it should be.
-/
namespace Sg.Spec

theorem pow2_eq (e : ℤ) : pow2 e = (2 : ℚ) ^ e := by
  unfold pow2
  split_ifs with h
  · obtain ⟨n, rfl⟩ := Int.eq_ofNat_of_zero_le h
    simp
  · obtain ⟨n, hn⟩ := Int.eq_ofNat_of_zero_le (show 0 ≤ -e by omega)
    rw [show e = -(n : ℤ) by omega]
    simp

theorem log2q_spec {x : ℚ} (hx : 0 < x) : (2 : ℚ) ^ (log2q x) ≤ x ∧ x < (2 : ℚ) ^ (log2q x + 1) := by
  have hn0 : x.num.natAbs ≠ 0 := by have := Rat.num_pos.mpr hx; omega
  have hd0 : x.den ≠ 0 := x.den_nz
  have hxe : (x.num.natAbs : ℚ) = x * x.den := by
    have h1 : ((x.num.natAbs : ℤ) : ℚ) = (x.num : ℚ) := by rw [Int.natAbs_of_nonneg (Rat.num_nonneg.mpr hx.le)]
    rw [Int.cast_natCast] at h1
    rw [h1, mul_comm, Rat.den_mul_eq_num]
  have hd : (0 : ℚ) < x.den := by exact_mod_cast Nat.pos_of_ne_zero hd0
  have a1 : ((2 ^ x.num.natAbs.log2 : ℕ) : ℚ) ≤ (x.num.natAbs : ℚ) := by exact_mod_cast Nat.log2_self_le hn0
  have a2 : (x.num.natAbs : ℚ) < ((2 ^ (x.num.natAbs.log2 + 1) : ℕ) : ℚ) := by exact_mod_cast Nat.lt_log2_self
  have b1 : ((2 ^ x.den.log2 : ℕ) : ℚ) ≤ (x.den : ℚ) := by exact_mod_cast Nat.log2_self_le hd0
  have b2 : (x.den : ℚ) < ((2 ^ (x.den.log2 + 1) : ℕ) : ℚ) := by exact_mod_cast Nat.lt_log2_self
  push_cast at a1 a2 b1 b2
  rw [hxe] at a1 a2
  set e : ℤ := (x.num.natAbs.log2 : ℤ) - (x.den.log2 : ℤ) with he
  have p : (2 : ℚ) ^ e * 2 ^ x.den.log2 = 2 ^ x.num.natAbs.log2 := by
    rw [← zpow_natCast, ← zpow_natCast, ← zpow_add₀ two_ne_zero, he, sub_add_cancel]
  have pe : (0 : ℚ) < 2 ^ e := zpow_pos two_pos _
  have pd : (0 : ℚ) < 2 ^ x.den.log2 := pow_pos two_pos _
  have hi : x < (2 : ℚ) ^ (e + 1) := by
    rw [zpow_add_one₀ two_ne_zero]
    have : x * 2 ^ x.den.log2 < (2 ^ e * 2) * 2 ^ x.den.log2 :=
      calc x * 2 ^ x.den.log2 ≤ x * x.den := mul_le_mul_of_nonneg_left b1 hx.le
        _ < 2 ^ (x.num.natAbs.log2 + 1) := a2
        _ = (2 ^ e * 2) * 2 ^ x.den.log2 := by rw [pow_succ, ← p]; ring
    exact lt_of_mul_lt_mul_right this pd.le
  have lo : (2 : ℚ) ^ (e - 1) ≤ x := by
    rw [zpow_sub_one₀ two_ne_zero]
    have : (2 ^ e * 2⁻¹) * 2 ^ (x.den.log2 + 1) < x * 2 ^ (x.den.log2 + 1) :=
      calc (2 ^ e * 2⁻¹) * 2 ^ (x.den.log2 + 1) = 2 ^ x.num.natAbs.log2 := by rw [pow_succ, ← p]; ring
        _ ≤ x * x.den := a1
        _ < x * 2 ^ (x.den.log2 + 1) := mul_lt_mul_of_pos_left b2 hx
    exact (lt_of_mul_lt_mul_right this (by positivity)).le
  unfold log2q
  simp only [← he, pow2_eq]
  split_ifs with h
  · exact ⟨h, hi⟩
  · rw [sub_add_cancel]
    exact ⟨lo, not_le.mp h⟩

theorem log2q_unique {x : ℚ} {e : ℤ} (h1 : (2 : ℚ) ^ e ≤ x) (h2 : x < (2 : ℚ) ^ (e + 1)) : log2q x = e := by
  have hx : 0 < x := (zpow_pos two_pos e).trans_le h1
  obtain ⟨g1, g2⟩ := log2q_spec hx
  have k1 := (zpow_lt_zpow_iff_right₀ (a := (2 : ℚ)) one_lt_two).mp (h1.trans_lt g2)
  have k2 := (zpow_lt_zpow_iff_right₀ (a := (2 : ℚ)) one_lt_two).mp (g1.trans_lt h2)
  omega

theorem rneInt_near (y : ℚ) : |(rneInt y : ℚ) - y| ≤ 1 / 2 := by
  have h1 : (y.floor : ℚ) ≤ y := Rat.floor_le y
  have h2 : y < y.floor + 1 := by have := Rat.lt_floor_add_one y; exact_mod_cast this
  unfold rneInt
  simp only
  rw [abs_le]
  split_ifs <;> push_cast <;> constructor <;> linarith

theorem rneInt_eq {y : ℚ} {m : ℤ} (h : |y - m| < 1 / 2) : rneInt y = m := by
  have h1 := rneInt_near y
  have : |((rneInt y - m : ℤ) : ℚ)| < 1 := by
    push_cast
    rw [show ((rneInt y : ℚ) - m) = (rneInt y - y) + (y - m) by ring]
    exact (abs_add_le _ _).trans_lt (by linarith)
  have h3 : |rneInt y - m| < 1 := by exact_mod_cast this
  rw [Int.abs_lt_one_iff] at h3
  omega

/-- The error of a rounding is half a unit in the last of the 53 places at most. -/
theorem rne_near (x : ℚ) : |rne x - x| ≤ |x| / 2 ^ 53 := by
  unfold rne
  split_ifs with h
  · rw [h]; simp
  · have hp := abs_pos.mpr h
    obtain ⟨g1, -⟩ := log2q_spec hp
    simp only [pow2_eq]
    set s : ℚ := 2 ^ (log2q |x| - 52) with hs
    have sp : 0 < s := zpow_pos two_pos _
    have e : (rneInt (x / s) : ℚ) * s - x = (rneInt (x / s) - x / s) * s := by rw [sub_mul, div_mul_cancel₀ _ sp.ne']
    rw [e, abs_mul, abs_of_pos sp]
    have hsx : s * 2 ^ 52 ≤ |x| := by
      rw [hs, ← zpow_natCast, ← zpow_add₀ two_ne_zero]
      refine le_trans (le_of_eq ?_) g1
      norm_num
    have := mul_le_mul_of_nonneg_right (rneInt_near (x / s)) sp.le
    rw [le_div_iff₀ (by norm_num)]
    linarith

/-- A result has 53 binary digits. -/
theorem rne_digits (x : ℚ) : ∃ m e : ℤ, |m| ≤ 2 ^ 53 ∧ rne x = m * 2 ^ e := by
  unfold rne
  split_ifs with h
  · exact ⟨0, 0, by norm_num, by simp⟩
  · have hp := abs_pos.mpr h
    obtain ⟨-, g2⟩ := log2q_spec hp
    refine ⟨rneInt (x / pow2 (log2q |x| - 52)), log2q |x| - 52, ?_, by rw [pow2_eq]⟩
    set s : ℚ := pow2 (log2q |x| - 52) with hs
    rw [pow2_eq] at hs
    have sp : 0 < s := hs ▸ zpow_pos two_pos _
    have h1 := rneInt_near (x / s)
    have h2 : |x / s| ≤ 2 ^ 53 := by
      rw [abs_div, abs_of_pos sp, div_le_iff₀ sp, hs, ← zpow_natCast, ← zpow_add₀ two_ne_zero]
      refine g2.le.trans (le_of_eq ?_)
      congr 1
      push_cast
      ring
    have h3 : |(rneInt (x / s) : ℚ)| < 2 ^ 53 + 1 := by
      rw [show (rneInt (x / s) : ℚ) = (rneInt (x / s) - x / s) + x / s by ring]
      exact (abs_add_le _ _).trans_lt (by linarith)
    have h4 : |rneInt (x / s)| < 2 ^ 53 + 1 := by exact_mod_cast h3
    omega

/-- A number that is closer than half a unit to one with 53 digits is rounded to it. -/
theorem rne_eq {x : ℚ} {m e : ℤ} (h1 : (2 : ℚ) ^ (e + 52) ≤ |x|) (h2 : |x| < (2 : ℚ) ^ (e + 53)) (h3 : |x - m * 2 ^ e| < 2 ^ e / 2) :
    rne x = m * 2 ^ e := by
  have hp : 0 < |x| := (zpow_pos two_pos _).trans_le h1
  have hl : log2q |x| = e + 52 := log2q_unique h1 (by rw [show e + 52 + 1 = e + 53 by ring]; exact h2)
  unfold rne
  rw [if_neg (abs_pos.mp hp)]
  simp only [hl, add_sub_cancel_right, pow2_eq]
  have sp : (0 : ℚ) < 2 ^ e := zpow_pos two_pos _
  rw [rneInt_eq]
  have : x / 2 ^ e - m = (x - m * 2 ^ e) / 2 ^ e := by field_simp
  rw [this, abs_div, abs_of_pos sp, div_lt_iff₀ sp]
  linarith

end Sg.Spec
