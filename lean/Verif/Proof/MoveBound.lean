import Mathlib.MeasureTheory.Integral.IntervalIntegral.AbsolutelyContinuousFun
import Mathlib.Analysis.Calculus.MeanValue
/-
Integrals of `G dR` along a segment, and how little they change when the segment is moved.
-/
namespace Sg.Move
open MeasureTheory intervalIntegral

/-- The integral of `G (second coordinate)` times the derivative of `R (first coordinate)` along the segment from `(ua, va)` to `(ub, vb)`. -/
noncomputable def along (G R : ℝ → ℝ) (ua va ub vb : ℝ) : ℝ :=
  ∫ t in (0 : ℝ)..1, G (va + t * (vb - va)) * deriv (fun t : ℝ => R (ua + t * (ub - ua))) t

/-- Lipschitz with constant `K`. -/
def Lip (K : ℝ) (R : ℝ → ℝ) : Prop := 0 ≤ K ∧ ∀ u u', |R u - R u'| ≤ K * |u - u'|

variable {G R : ℝ → ℝ} {K L M : ℝ}

theorem Lip.line (h : Lip K R) (ua ub : ℝ) : Lip (K * |ub - ua|) fun t => R (ua + t * (ub - ua)) := by
  refine ⟨mul_nonneg h.1 (abs_nonneg _), fun s t => (h.2 _ _).trans (le_of_eq ?_)⟩
  have : ua + s * (ub - ua) - (ua + t * (ub - ua)) = (ub - ua) * (s - t) := by ring
  rw [this, abs_mul]; ring

theorem Lip.with (h : Lip K R) : LipschitzWith ⟨K, h.1⟩ R := LipschitzWith.of_dist_le_mul fun u u' => by
  rw [Real.dist_eq, Real.dist_eq]; exact h.2 u u'

theorem Lip.deriv (h : Lip K R) (t : ℝ) : |deriv R t| ≤ K := norm_deriv_le_of_lipschitz h.with

theorem Lip.ac (h : Lip K R) (a b : ℝ) : AbsolutelyContinuousOnInterval R a b := h.with.lipschitzOnWith.absolutelyContinuousOnInterval

theorem Lip.term (hG : Lip L G) (hR : Lip K R) (ua va ub vb : ℝ) :
    IntervalIntegrable (fun t => G (va + t * (vb - va)) * _root_.deriv (fun t : ℝ => R (ua + t * (ub - ua))) t) volume 0 1 :=
  ((hR.line ua ub).ac 0 1).intervalIntegrable_deriv.continuousOn_mul (hG.line va vb).with.continuous.continuousOn

theorem near_line {a b a' b' δ : ℝ} (ha : |a - a'| ≤ δ) (hb : |b - b'| ≤ δ) {t : ℝ} (h0 : 0 ≤ t) (h1 : t ≤ 1) :
    |a + t * (b - a) - (a' + t * (b' - a'))| ≤ δ := by
  have e : a + t * (b - a) - (a' + t * (b' - a')) = (1 - t) * (a - a') + t * (b - b') := by ring
  rw [e]
  refine (abs_add_le _ _).trans ?_
  rw [abs_mul, abs_mul, abs_of_nonneg h0, abs_of_nonneg (sub_nonneg.2 h1)]
  have := mul_le_mul_of_nonneg_left ha (sub_nonneg.2 h1)
  have := mul_le_mul_of_nonneg_left hb h0
  linarith

theorem along_move (hG : Lip L G) (hM : ∀ v, |G v| ≤ M) (hR : Lip K R) {ua va ub vb ua' va' ub' vb' δ : ℝ} (hua : |ua - ua'| ≤ δ)
    (hub : |ub - ub'| ≤ δ) (hva : |va - va'| ≤ δ) (hvb : |vb - vb'| ≤ δ) :
    |along G R ua va ub vb - along G R ua' va' ub' vb'| ≤ (L * (|ub - ua| + |vb' - va'|) + 2 * M) * K * δ := by
  have hδ : 0 ≤ δ := (abs_nonneg _).trans hua
  have hM0 : 0 ≤ M := (abs_nonneg _).trans (hM 0)
  have i1 := hG.term hR ua va ub vb
  have i2 := hG.term hR ua va' ub vb'
  have i3 := hG.term hR ua' va' ub' vb'
  have A : |along G R ua va ub vb - along G R ua va' ub vb'| ≤ L * δ * (K * |ub - ua|) := by
    unfold along
    rw [← intervalIntegral.integral_sub i1 i2]
    have := intervalIntegral.norm_integral_le_of_norm_le_const (a := (0 : ℝ)) (b := 1) (C := L * δ * (K * |ub - ua|))
      (f := fun t => G (va + t * (vb - va)) * _root_.deriv (fun t : ℝ => R (ua + t * (ub - ua))) t -
        G (va' + t * (vb' - va')) * _root_.deriv (fun t : ℝ => R (ua + t * (ub - ua))) t) (by
        intro t ht
        rw [Set.uIoc_of_le zero_le_one] at ht
        rw [← sub_mul, Real.norm_eq_abs, abs_mul]
        refine mul_le_mul ((hG.2 _ _).trans (mul_le_mul_of_nonneg_left (near_line hva hvb ht.1.le ht.2) hG.1)) ((hR.line ua ub).deriv t) (abs_nonneg _)
          (mul_nonneg hG.1 hδ))
    simpa using this
  have B : |along G R ua va' ub vb' - along G R ua' va' ub' vb'| ≤ 2 * (M * (K * δ)) + L * |vb' - va'| * (K * δ) := by
    unfold along
    have hd := (hG.line va' vb').ac 0 1
    have e1 := hd.integral_mul_deriv_eq_deriv_mul ((hR.line ua ub).ac 0 1)
    have e2 := hd.integral_mul_deriv_eq_deriv_mul ((hR.line ua' ub').ac 0 1)
    rw [e1, e2]
    have j1 := hd.intervalIntegrable_deriv.mul_continuousOn ((hR.line ua ub).ac 0 1).continuousOn
    have j2 := hd.intervalIntegrable_deriv.mul_continuousOn ((hR.line ua' ub').ac 0 1).continuousOn
    have key : ∀ t, 0 ≤ t → t ≤ 1 → |R (ua + t * (ub - ua)) - R (ua' + t * (ub' - ua'))| ≤ K * δ := fun t h0 h1 =>
      (hR.2 _ _).trans (mul_le_mul_of_nonneg_left (near_line hua hub h0 h1) hR.1)
    have C := intervalIntegral.norm_integral_le_of_norm_le_const (a := (0 : ℝ)) (b := 1) (C := L * |vb' - va'| * (K * δ))
      (f := fun t => _root_.deriv (fun t : ℝ => G (va' + t * (vb' - va'))) t * R (ua + t * (ub - ua)) -
        _root_.deriv (fun t : ℝ => G (va' + t * (vb' - va'))) t * R (ua' + t * (ub' - ua'))) (by
        intro t ht
        rw [Set.uIoc_of_le zero_le_one] at ht
        rw [← mul_sub, Real.norm_eq_abs, abs_mul]
        exact mul_le_mul ((hG.line va' vb').deriv t) (key t ht.1.le ht.2) (abs_nonneg _) (mul_nonneg hG.1 (abs_nonneg _)))
    rw [intervalIntegral.integral_sub j1 j2, Real.norm_eq_abs, sub_zero, abs_one, mul_one] at C
    have k1 := key 1 zero_le_one le_rfl
    have k0 := key 0 le_rfl zero_le_one
    have m1 : |G (va' + 1 * (vb' - va')) * (R (ua + 1 * (ub - ua)) - R (ua' + 1 * (ub' - ua')))| ≤ M * (K * δ) := by
      rw [abs_mul]; exact mul_le_mul (hM _) k1 (abs_nonneg _) hM0
    have m0 : |G (va' + 0 * (vb' - va')) * (R (ua + 0 * (ub - ua)) - R (ua' + 0 * (ub' - ua')))| ≤ M * (K * δ) := by
      rw [abs_mul]; exact mul_le_mul (hM _) k0 (abs_nonneg _) hM0
    generalize (∫ t in (0 : ℝ)..1, _root_.deriv (fun t : ℝ => G (va' + t * (vb' - va'))) t * R (ua + t * (ub - ua))) = P at *
    generalize (∫ t in (0 : ℝ)..1, _root_.deriv (fun t : ℝ => G (va' + t * (vb' - va'))) t * R (ua' + t * (ub' - ua'))) = Q at *
    generalize G (va' + 1 * (vb' - va')) = g1 at *
    generalize G (va' + 0 * (vb' - va')) = g0 at *
    generalize R (ua + 1 * (ub - ua)) = r1 at *
    generalize R (ua + 0 * (ub - ua)) = r0 at *
    generalize R (ua' + 1 * (ub' - ua')) = s1 at *
    generalize R (ua' + 0 * (ub' - ua')) = s0 at *
    have e : g1 * r1 - g0 * r0 - P - (g1 * s1 - g0 * s0 - Q) = g1 * (r1 - s1) - g0 * (r0 - s0) - (P - Q) := by ring
    rw [e]
    refine (abs_sub _ _).trans ?_
    have := abs_sub (g1 * (r1 - s1)) (g0 * (r0 - s0))
    linarith
  have := abs_sub_le (along G R ua va ub vb) (along G R ua va' ub vb') (along G R ua' va' ub' vb')
  refine this.trans ((add_le_add A B).trans (le_of_eq ?_))
  ring

end Sg.Move
