import Verif.Proof.Turns
import Verif.Props.Polar
import Verif.Props.FlowTrapezoid
/-
Flows round the pole of a polar grid.
-/
namespace Sg.Polar
open Sg Sg.LinearSolve Sg.Triangulate Sg.QuadIntersect Sg.QuadFlows Sg.FlowInterp Sg.Spec Sg.Props Sg.Plane Sg.Conserve Real

theorem wedge_trapezoid {α δ lo hi : ℝ} (hδ : 0 < sin δ) (h0 : 0 ≤ lo) (h1 : lo < hi) : Trapezoid (wedgeQuad α δ lo hi) := by
  refine ⟨wedgeQuad_convex hδ h0 h1, .inl ?_⟩
  simp only [Parallel, wedgeQuad, Prod.fst_sub, Prod.snd_sub, Prod.smul_fst, Prod.smul_snd, smul_eq_mul]
  ring

theorem at_wedge (α δ lo hi : ℝ) (z : Fin 2 → ℝ) :
    at_ (wedgeQuad α δ lo hi) z = (lo + z 0 * (hi - lo)) • ((1 - z 1) • dir α + z 1 • dir (α + δ)) := by
  ext
  · simp only [at_, bilin, wedgeQuad, Prod.smul_fst, Prod.fst_add, smul_eq_mul]; ring
  · simp only [at_, bilin, wedgeQuad, Prod.smul_snd, Prod.snd_add, smul_eq_mul]; ring

/-- Product of two distances. -/
theorem cross_le (u w : P2) : |u.1 * w.2 - u.2 * w.1| ≤ Real.sqrt (u.1 ^ 2 + u.2 ^ 2) * Real.sqrt (w.1 ^ 2 + w.2 ^ 2) := by
  rw [← Real.sqrt_mul (by positivity)]
  apply Real.le_sqrt_of_sq_le
  rw [sq_abs]
  nlinarith [sq_nonneg (u.1 * w.1 + u.2 * w.2)]

/-- Position along the chord of a place near a point of the sector. -/
theorem chord_near {α δ lo hi ψ ρ ε : ℝ} (hδ0 : 0 < δ) (hδ : δ < π) (h0 : 0 ≤ lo) (h1 : lo < hi) (p0 : 0 ≤ ψ) (p1 : ψ ≤ δ) (hρ : 0 < ρ)
    {z : Fin 2 → ℝ} (hz : InCell z) (hε : apart (at_ (wedgeQuad α δ lo hi) z) (ρ • dir (α + ψ)) < ε) :
    |z 1 - sin ψ / (sin ψ + sin (δ - ψ))| ≤ ε / (ρ * sin δ) := by
  have hs : 0 < sin δ := sin_pos_of_pos_of_lt_pi hδ0 hδ
  have hS := sin_sum_ge p0 p1 hδ.le
  have a := sin_nonneg_of_nonneg_of_le_pi p0 (by linarith)
  have b := sin_nonneg_of_nonneg_of_le_pi (sub_nonneg.mpr p1) (by linarith)
  set S := sin ψ + sin (δ - ψ) with hSd
  set η := sin ψ / S with hη
  have hSp : 0 < S := by linarith
  have n0 : 0 ≤ η := div_nonneg a hSp.le
  have n1 : η ≤ 1 := by rw [hη, div_le_one hSp]; linarith
  have hεp : 0 < ε := lt_of_le_of_lt (Real.sqrt_nonneg _) hε
  obtain ⟨z0, z1⟩ := hz 0
  obtain ⟨y0, y1⟩ := hz 1
  rw [at_wedge] at hε
  set σ := lo + z 0 * (hi - lo) with hσ
  have hσ0 : 0 ≤ σ := by
    have := mul_nonneg z0 (sub_nonneg.mpr h1.le)
    linarith
  set P' : P2 := σ • ((1 - z 1) • dir α + z 1 • dir (α + δ)) with hP'
  set p : P2 := ρ • dir (α + ψ) with hp
  rcases hσ0.eq_or_lt with hz0 | hσp
  · have hP0 : P' = 0 := by rw [hP', ← hz0, zero_smul]
    have hlt : ρ < ε := by
      have : apart P' p = apart p 0 := by
        rw [hP0]; unfold apart; congr 1; simp only [Prod.fst_zero, Prod.snd_zero]; ring
      rw [this, apart_dir hρ.le] at hε
      exact hε
    have hle : 1 ≤ ε / (ρ * sin δ) := by
      rw [le_div_iff₀ (by positivity)]
      nlinarith [sin_le_one δ]
    refine le_trans ?_ hle
    rw [abs_le]; constructor <;> linarith
  · -- the cross product of the two places
    have hcr : P'.1 * p.2 - P'.2 * p.1 = σ * ρ * (S * (η - z 1)) := by
      have e1 : S * η = sin ψ := by rw [hη]; field_simp
      have e2 : sin (α + δ) * cos (α + ψ) - cos (α + δ) * sin (α + ψ) = sin (δ - ψ) := by
        rw [← sin_sub]; congr 1; ring
      have e3 : sin (α + ψ) * cos α - cos (α + ψ) * sin α = sin ψ := by
        rw [← sin_sub]; congr 1; ring
      simp only [hP', hp, dir, Prod.smul_fst, Prod.smul_snd, Prod.fst_add, Prod.snd_add, smul_eq_mul]
      linear_combination σ * ρ * (1 - z 1) * e3 - σ * ρ * z 1 * e2 - σ * ρ * e1 - σ * ρ * z 1 * hSd
    have hnorm : Real.sqrt (P'.1 ^ 2 + P'.2 ^ 2) ≤ σ := by
      apply Real.sqrt_le_iff.mpr
      refine ⟨hσ0, ?_⟩
      have e : P'.1 ^ 2 + P'.2 ^ 2 = σ ^ 2 * ((1 - z 1) ^ 2 + z 1 ^ 2 + 2 * (1 - z 1) * z 1 * cos δ) := by
        have e4 : cos (α + δ) * cos α + sin (α + δ) * sin α = cos δ := by rw [← cos_sub]; congr 1; ring
        have a1 := sin_sq_add_cos_sq α
        have a2 := sin_sq_add_cos_sq (α + δ)
        simp only [hP', dir, Prod.smul_fst, Prod.smul_snd, Prod.fst_add, Prod.snd_add, smul_eq_mul]
        linear_combination σ ^ 2 * (1 - z 1) ^ 2 * a1 + σ ^ 2 * z 1 ^ 2 * a2 + 2 * σ ^ 2 * (1 - z 1) * z 1 * e4
      rw [e]
      have hq : (1 - z 1) ^ 2 + z 1 ^ 2 + 2 * (1 - z 1) * z 1 * cos δ ≤ 1 := by
        have := mul_nonneg (sub_nonneg.mpr y1) y0
        nlinarith [cos_le_one δ]
      have := sq_nonneg σ
      nlinarith
    have hb := cross_le P' (p - P')
    have e5 : P'.1 * (p - P').2 - P'.2 * (p - P').1 = P'.1 * p.2 - P'.2 * p.1 := by
      simp only [Prod.fst_sub, Prod.snd_sub]; ring
    have e6 : Real.sqrt ((p - P').1 ^ 2 + (p - P').2 ^ 2) = apart P' p := by
      unfold apart; congr 1; simp only [Prod.fst_sub, Prod.snd_sub]; ring
    rw [e5, e6, hcr] at hb
    have hb2 : |σ * ρ * (S * (η - z 1))| ≤ σ * ε :=
      hb.trans (mul_le_mul hnorm hε.le (Real.sqrt_nonneg _) hσ0)
    rw [abs_mul, abs_of_pos (mul_pos hσp hρ), abs_mul, abs_of_pos hSp, abs_sub_comm η] at hb2
    have hb3 : ρ * (S * |z 1 - η|) ≤ ε := by
      have : σ * (ρ * (S * |z 1 - η|)) ≤ σ * ε := by linarith
      exact le_of_mul_le_mul_left this hσp
    rw [le_div_iff₀ (by positivity)]
    have : ρ * (sin δ * |z 1 - η|) ≤ ρ * (S * |z 1 - η|) :=
      mul_le_mul_of_nonneg_left (mul_le_mul_of_nonneg_right hS (abs_nonneg _)) hρ.le
    linarith

theorem two_le_n_sin {n : Nat} (hn : 3 ≤ n) : 2 ≤ (n : ℝ) * sin (2 * π / n) := by
  have hp := Real.pi_pos
  rcases hn.eq_or_lt with rfl | h4
  · have e : sin (2 * π / (3 : Nat)) = Real.sqrt 3 / 2 := by
      rw [← sin_pi_div_three, ← sin_pi_sub]
      congr 1
      push_cast
      ring
    rw [e]
    have : (3 : ℝ) / 2 ≤ Real.sqrt 3 := Real.le_sqrt_of_sq_le (by norm_num)
    push_cast
    linarith
  · have hn4 : (4 : ℝ) ≤ n := by exact_mod_cast h4
    obtain ⟨d0, -, -, hnd⟩ := angle_bounds hn
    have hle : 2 * π / n ≤ π / 2 := by rw [div_le_iff₀ (by linarith)]; nlinarith
    have := mul_le_sin d0.le hle
    have h2 : (n : ℝ) * (2 / π * (2 * π / n)) = 4 := by field_simp; norm_num
    have hnp : (0 : ℝ) ≤ n := by linarith
    nlinarith [mul_le_mul_of_nonneg_left this hnp]

/-- Directions along a segment between two points seen less than half a turn apart. -/
theorem segment_dir {ρa ρb θa θb : ℝ} (ha : 0 < ρa) (hb : 0 < ρb) (hd : |θb - θa| < π) (t : ℝ) (t0 : 0 ≤ t) (t1 : t ≤ 1) :
    ∃ ρ θ : ℝ, 0 < ρ ∧ min θa θb ≤ θ ∧ θ ≤ max θa θb ∧ ρa • dir θa + t • (ρb • dir θb - ρa • dir θa) = ρ • dir θ := by
  obtain ⟨d1, d2⟩ := abs_lt.mp hd
  have e : ρa • dir θa + t • (ρb • dir θb - ρa • dir θa) = ((1 - t) * ρa) • dir θa + (t * ρb) • dir θb := by
    ext <;> simp <;> ring
  have hpos : 0 < (1 - t) * ρa + t * ρb := by
    rcases t0.eq_or_lt with rfl | h
    · linarith
    · have := mul_pos h hb
      have := mul_nonneg (sub_nonneg.mpr t1) ha.le
      linarith
  have p1 : 0 ≤ (1 - t) * ρa := mul_nonneg (sub_nonneg.mpr t1) ha.le
  have p2 : 0 ≤ t * ρb := mul_nonneg t0 hb.le
  rcases le_total θa θb with h | h
  · obtain ⟨ρ, ψ, h1, h2, h3, h4⟩ := cone (α := θa) (δ := θb - θa) (by linarith) (by linarith) p1 p2 hpos
    refine ⟨ρ, θa + ψ, h1, by rw [min_eq_left h]; linarith, by rw [max_eq_right h]; linarith, ?_⟩
    rw [e, ← h4]
    congr 3
    ring
  · obtain ⟨ρ, ψ, h1, h2, h3, h4⟩ := cone (α := θb) (δ := θa - θb) (by linarith) (by linarith) p2 p1 (by linarith)
    refine ⟨ρ, θb + ψ, h1, by rw [min_eq_right h]; linarith, by rw [max_eq_left h]; linarith, ?_⟩
    rw [e, ← h4, add_comm]
    congr 3
    ring

/-- A point of a wedge other than the pole has a direction between its sides. -/
theorem wedge_dir {α δ lo hi : ℝ} (hδ0 : 0 ≤ δ) (hδ : δ < π) {p : P2} (hp : p ∈ wedge α δ lo hi) (hp0 : p ≠ 0) :
    ∃ ρ ψ : ℝ, 0 < ρ ∧ 0 ≤ ψ ∧ ψ ≤ δ ∧ p = ρ • dir (α + ψ) := by
  obtain ⟨s, t, hs, ht, -, -, rfl⟩ := hp
  have hst : 0 < s + t := by
    rcases (add_nonneg hs ht).eq_or_lt with h | h
    · exfalso
      apply hp0
      have e1 : s = 0 := by linarith
      have e2 : t = 0 := by linarith
      rw [e1, e2, zero_smul, zero_smul, add_zero]
    · exact h
  exact cone hδ0 hδ hs ht hst

theorem dir_smul_ne {ρ θ : ℝ} (h : 0 < ρ) : ρ • dir θ ≠ 0 := smul_ne_zero h.ne' (dir_ne θ)

/-- All points of a segment in one sector are in the same turn. -/
theorem same_turn {n : Nat} (hn : 3 ≤ n) (lo hi : ℝ) (hlh : hi - lo < π) (j : Nat) (T : Set ℝ) (θ : ℝ → ℝ)
    (hθ : ∀ t ∈ T, lo ≤ θ t ∧ θ t ≤ hi) (hs : ∀ t ∈ T, ∃ (w : ℤ) (ψ : ℝ), 0 ≤ ψ ∧ ψ ≤ 2 * π / n ∧ θ t = 2 * π / n * j + ψ + 2 * π * w) :
    ∃ w : ℤ, ∀ t ∈ T, ∃ ψ : ℝ, 0 ≤ ψ ∧ ψ ≤ 2 * π / n ∧ θ t = 2 * π / n * ((j + n * w : ℤ) : ℝ) + ψ := by
  obtain ⟨d0, d1, -, hnd⟩ := angle_bounds hn
  have hpi := Real.pi_pos
  rcases T.eq_empty_or_nonempty with rfl | ⟨t0, h0⟩
  · exact ⟨0, by simp⟩
  obtain ⟨w0, ψ0, a0, b0, e0⟩ := hs t0 h0
  refine ⟨w0, fun t ht => ?_⟩
  obtain ⟨w, ψ, a, b, e⟩ := hs t ht
  have hw : w = w0 := by
    have h1 := hθ t0 h0
    have h2 := hθ t ht
    by_contra hne
    rcases lt_or_gt_of_ne hne with h | h
    · have : (w : ℝ) + 1 ≤ w0 := by exact_mod_cast h
      nlinarith
    · have : (w0 : ℝ) + 1 ≤ w := by exact_mod_cast h
      nlinarith
  subst hw
  refine ⟨ψ, a, b, ?_⟩
  rw [e]
  push_cast
  linear_combination -w * hnd

end Sg.Polar
