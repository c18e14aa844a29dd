import Verif.Spec.Turns
import Verif.Spec.Trapezoid
import Verif.Proof.Polar
import Mathlib.Analysis.SpecialFunctions.Trigonometric.Angle
import Mathlib.Analysis.SpecialFunctions.Trigonometric.Bounds
import Mathlib.Analysis.SpecialFunctions.Trigonometric.Inverse
namespace Sg.Polar
open Sg Sg.Triangulate Sg.Spec Sg.Plane Sg.Conserve Real

theorem angle_bounds {n : Nat} (hn : 3 ≤ n) : 0 < 2 * π / n ∧ 2 * π / n ≤ 2 * π / 3 ∧ 2 * π / n < π ∧ (n : ℝ) * (2 * π / n) = 2 * π := by
  have hn0 : (3 : ℝ) ≤ n := by exact_mod_cast hn
  have hp := Real.pi_pos
  have h1 : 0 < 2 * π / n := by positivity
  have h2 : 2 * π / n ≤ 2 * π / 3 := div_le_div_of_nonneg_left (by positivity) (by norm_num) hn0
  exact ⟨h1, h2, by linarith, by field_simp⟩

/-- The sum of the two sines. -/
theorem sin_sum_ge {δ ψ : ℝ} (h0 : 0 ≤ ψ) (h1 : ψ ≤ δ) (hδ : δ ≤ π) : sin δ ≤ sin ψ + sin (δ - ψ) := by
  have e : sin δ = sin ψ * cos (δ - ψ) + cos ψ * sin (δ - ψ) := by
    rw [← sin_add]; congr 1; ring
  have a := sin_nonneg_of_nonneg_of_le_pi h0 (by linarith)
  have b := sin_nonneg_of_nonneg_of_le_pi (sub_nonneg.mpr h1) (by linarith)
  have c := cos_le_one (δ - ψ)
  have d := cos_le_one ψ
  nlinarith

theorem polyTurns_sector {n : Nat} (hn : 3 ≤ n) (j : ℤ) {ψ : ℝ} (h0 : 0 ≤ ψ) (h1 : ψ ≤ 2 * π / n) :
    polyTurns n (2 * π / n * j + ψ) = (j + sin ψ / (sin ψ + sin (2 * π / n - ψ))) / n := by
  obtain ⟨d0, -, d1, -⟩ := angle_bounds hn
  set δ := 2 * π / n with hδ
  have hs : 0 < sin δ := sin_pos_of_pos_of_lt_pi d0 d1
  unfold polyTurns
  rw [← hδ]
  dsimp only
  have ediv : (δ * j + ψ) / δ = j + ψ / δ := by field_simp
  rw [ediv]
  rcases h1.eq_or_lt with h | h
  · rw [h]
    have : ⌊(j : ℝ) + δ / δ⌋ = j + 1 := by
      rw [div_self d0.ne', Int.floor_intCast_add]; simp
    rw [this]
    have e0 : δ * (j : ℝ) + δ - δ * ((j + 1 : ℤ) : ℝ) = 0 := by push_cast; ring
    rw [e0, sub_self, sin_zero, zero_div, add_zero, add_zero, div_self hs.ne']
    push_cast
    ring
  · have : ⌊(j : ℝ) + ψ / δ⌋ = j := by
      rw [Int.floor_intCast_add]
      have : ⌊ψ / δ⌋ = 0 := by
        rw [Int.floor_eq_zero_iff]
        exact ⟨by positivity, by rw [div_lt_one d0]; exact h⟩
      rw [this, add_zero]
    rw [this]
    have e0 : δ * (j : ℝ) + ψ - δ * j = ψ := by ring
    rw [e0]

/-- Every angle is in a sector. -/
theorem exists_sector {n : Nat} (hn : 3 ≤ n) (θ : ℝ) : ∃ (j : ℤ) (ψ : ℝ), 0 ≤ ψ ∧ ψ ≤ 2 * π / n ∧ θ = 2 * π / n * j + ψ := by
  obtain ⟨d0, -, -, -⟩ := angle_bounds hn
  refine ⟨⌊θ / (2 * π / n)⌋, θ - 2 * π / n * ⌊θ / (2 * π / n)⌋, ?_, ?_, by ring⟩
  · have := Int.floor_le (θ / (2 * π / n))
    rw [le_div_iff₀ d0] at this
    linarith
  · have := (Int.lt_floor_add_one (θ / (2 * π / n))).le
    rw [div_le_iff₀ d0] at this
    linarith

theorem polyTurns_add {n : Nat} (hn : 3 ≤ n) (θ : ℝ) (w : ℤ) : polyTurns n (θ + 2 * π * w) = polyTurns n θ + w := by
  obtain ⟨-, -, -, hnd⟩ := angle_bounds hn
  have hn0 : (n : ℝ) ≠ 0 := by have : 0 < n := by omega
                               positivity
  obtain ⟨j, ψ, h0, h1, rfl⟩ := exists_sector hn θ
  have e : 2 * π / n * (j : ℝ) + ψ + 2 * π * w = 2 * π / n * ((j + n * w : ℤ) : ℝ) + ψ := by
    push_cast
    linear_combination -w * hnd
  rw [e, polyTurns_sector hn _ h0 h1, polyTurns_sector hn _ h0 h1]
  push_cast
  field_simp
  ring

theorem polyTurns_near {n : Nat} (hn : 3 ≤ n) (θ : ℝ) : |polyTurns n θ - θ / (2 * π)| ≤ 1 / n := by
  obtain ⟨d0, -, d1, hnd⟩ := angle_bounds hn
  have hnp : (0 : ℝ) < n := by exact_mod_cast (show 0 < n by omega)
  obtain ⟨j, ψ, h0, h1, rfl⟩ := exists_sector hn θ
  rw [polyTurns_sector hn _ h0 h1]
  have hs : 0 < sin (2 * π / n) := sin_pos_of_pos_of_lt_pi d0 d1
  have hS := sin_sum_ge h0 h1 d1.le
  have a := sin_nonneg_of_nonneg_of_le_pi h0 (by linarith)
  have b := sin_nonneg_of_nonneg_of_le_pi (sub_nonneg.mpr h1) (by linarith)
  set η := sin ψ / (sin ψ + sin (2 * π / n - ψ)) with hη
  have n0 : 0 ≤ η := div_nonneg a (by linarith)
  have n1 : η ≤ 1 := by rw [hη, div_le_one (by linarith)]; linarith
  have e : (j + η) / n - (2 * π / n * j + ψ) / (2 * π) = (η - ψ / (2 * π / n)) / n := by
    field_simp
    ring
  rw [e, abs_div, abs_of_pos hnp]
  refine div_le_div_of_nonneg_right ?_ hnp.le
  have z0 : 0 ≤ ψ / (2 * π / n) := by positivity
  have z1 : ψ / (2 * π / n) ≤ 1 := by rw [div_le_one d0]; exact h1
  rw [abs_le]
  constructor <;> linarith

/-- A point between two directions less than half a turn apart has a direction between them. -/
theorem cone {α δ s t : ℝ} (hδ0 : 0 ≤ δ) (hδ : δ < π) (hs : 0 ≤ s) (ht : 0 ≤ t) (hst : 0 < s + t) :
    ∃ ρ ψ : ℝ, 0 < ρ ∧ 0 ≤ ψ ∧ ψ ≤ δ ∧ s • dir α + t • dir (α + δ) = ρ • dir (α + ψ) := by
  rcases hδ0.eq_or_lt with rfl | hδ0
  · refine ⟨s + t, 0, hst, le_rfl, le_rfl, ?_⟩
    rw [add_zero, add_smul]
  have hsin : 0 < sin δ := sin_pos_of_pos_of_lt_pi hδ0 hδ
  set X := s + t * cos δ with hX
  set Y := t * sin δ with hY
  have hY0 : 0 ≤ Y := by positivity
  have hpos : 0 < X ^ 2 + Y ^ 2 := by
    rcases ht.eq_or_lt with rfl | ht'
    · have : X = s := by rw [hX]; ring
      rw [this]
      have : 0 < s := by linarith
      positivity
    · have : 0 < Y := by positivity
      positivity
  set ρ := Real.sqrt (X ^ 2 + Y ^ 2) with hρ
  have hρp : 0 < ρ := Real.sqrt_pos.mpr hpos
  have hρ2 : ρ ^ 2 = X ^ 2 + Y ^ 2 := Real.sq_sqrt hpos.le
  have hXρ : |X| ≤ ρ := by
    rw [hρ]; apply Real.le_sqrt_of_sq_le; rw [sq_abs]; nlinarith
  obtain ⟨x1, x2⟩ := abs_le.mp hXρ
  set ψ := arccos (X / ρ) with hψ
  have c1 : cos ψ = X / ρ := cos_arccos (by rw [le_div_iff₀ hρp]; linarith) (by rw [div_le_one hρp]; exact x2)
  have s1 : sin ψ = Y / ρ := by
    rw [hψ, sin_arccos]
    have : 1 - (X / ρ) ^ 2 = (Y / ρ) ^ 2 := by
      field_simp
      linarith
    rw [this, Real.sqrt_sq (by positivity)]
  have p0 : 0 ≤ ψ := arccos_nonneg _
  have p1 : ψ ≤ π := arccos_le_pi _
  have hsd : sin (δ - ψ) = s * sin δ / ρ := by
    rw [sin_sub, c1, s1, hX, hY]
    field_simp
    ring
  refine ⟨ρ, ψ, hρp, p0, ?_, ?_⟩
  · by_contra hlt
    have hlt := not_le.mp hlt
    have hneg : sin (δ - ψ) < 0 := sin_neg_of_neg_of_neg_pi_lt (by linarith) (by linarith)
    rw [hsd] at hneg
    have : 0 ≤ s * sin δ / ρ := by positivity
    linarith
  · have eX : ρ * cos ψ = X := by rw [c1]; field_simp
    have eY : ρ * sin ψ = Y := by rw [s1]; field_simp
    ext
    · simp only [dir, Prod.fst_add, Prod.smul_fst, smul_eq_mul, cos_add]
      linear_combination -cos α * eX + sin α * eY + cos α * hX - sin α * hY
    · simp only [dir, Prod.snd_add, Prod.smul_snd, smul_eq_mul, sin_add]
      linear_combination -sin α * eX - cos α * eY + sin α * hX + cos α * hY

/-- The direction of a point is unique up to full turns. -/
theorem dir_unique {ρ ρ' θ θ' : ℝ} (h : 0 < ρ) (h' : 0 < ρ') (e : ρ • dir θ = ρ' • dir θ') : ∃ w : ℤ, θ = θ' + 2 * π * w := by
  have e1 := congrArg Prod.fst e
  have e2 := congrArg Prod.snd e
  simp only [dir, Prod.smul_fst, Prod.smul_snd, smul_eq_mul] at e1 e2
  have hsq : ρ ^ 2 = ρ' ^ 2 := by
    have a := sin_sq_add_cos_sq θ
    have b := sin_sq_add_cos_sq θ'
    linear_combination -ρ ^ 2 * a + ρ' ^ 2 * b + (ρ * sin θ + ρ' * sin θ') * e2 + (ρ * cos θ + ρ' * cos θ') * e1
  have hρ : ρ = ρ' := by
    rcases sq_eq_sq_iff_eq_or_eq_neg.mp hsq with h1 | h1
    · exact h1
    · linarith
  subst hρ
  have hc : cos θ = cos θ' := mul_left_cancel₀ h.ne' e1
  have hs : sin θ = sin θ' := mul_left_cancel₀ h.ne' e2
  have := Real.Angle.cos_sin_inj hc hs
  obtain ⟨w, hw⟩ := Real.Angle.angle_eq_iff_two_pi_dvd_sub.mp this
  exact ⟨w, by linarith⟩

theorem apart_dir {ρ θ : ℝ} (h : 0 ≤ ρ) : apart (ρ • dir θ) 0 = ρ := by
  have : (ρ * cos θ) ^ 2 + (ρ * sin θ) ^ 2 = ρ ^ 2 := by
    linear_combination ρ ^ 2 * sin_sq_add_cos_sq θ
  simp only [apart, dir, Prod.smul_fst, Prod.smul_snd, smul_eq_mul, Prod.fst_zero, Prod.snd_zero, sub_zero]
  rw [this, Real.sqrt_sq h]

end Sg.Polar
