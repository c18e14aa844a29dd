import Verif.Proof.FlowIntegral
import Mathlib.MeasureTheory.Group.Integral
import Mathlib.MeasureTheory.Measure.Haar.NormedSpace
import Mathlib.MeasureTheory.Measure.Haar.Unique
/-
The integral of an edge field along a segment: reversing and splitting the segment.
-/
namespace Sg.FlowInterp
open Sg.LinearSolve Sg.Triangulate Sg.QuadIntersect Sg.FindPoint Sg.QuadLine Sg.QuadFlows Sg.Spec Sg.Props Sg.Plane MeasureTheory

theorem cellVector_smul (q : Quad ℝ) (r : ℝ) (w : P2) : cellVector q (r • w) = r • cellVector q w := by
  unfold cellVector
  dsimp only
  refine Prod.ext ?_ ?_ <;> (simp only [Prod.smul_fst, Prod.smul_snd, smul_eq_mul]; ring)

theorem edgeField_smul (q : Quad ℝ) (E : Fin 4 → ℝ) (p w : P2) (r : ℝ) : edgeField q E p (r • w) = r * edgeField q E p w := by
  unfold edgeField
  dsimp only
  rw [cellVector_smul]
  simp only [Prod.smul_fst, Prod.smul_snd, smul_eq_mul]
  ring

theorem edgeField_neg (q : Quad ℝ) (E : Fin 4 → ℝ) (p w : P2) : edgeField q E p (-w) = - edgeField q E p w := by
  have := edgeField_smul q E p w (-1)
  simpa using this

theorem fieldIntegral_indicator (q : Quad ℝ) (E : Fin 4 → ℝ) (a b : P2) :
    fieldIntegral q E a b = ∫ t, (insideParams q a b).indicator (fun t => edgeField q E (a + t • (b - a)) (b - a)) t := by
  unfold fieldIntegral
  rw [integral_indicator (inside_compact q a b).measurableSet]

/-- Reversing a segment changes the sign. -/
theorem fieldIntegral_swap (q : Quad ℝ) (E : Fin 4 → ℝ) (a b : P2) : fieldIntegral q E b a = - fieldIntegral q E a b := by
  rw [fieldIntegral_indicator, fieldIntegral_indicator,
    ← integral_sub_left_eq_self (fun t => (insideParams q a b).indicator (fun t => edgeField q E (a + t • (b - a)) (b - a)) t) volume 1,
    ← integral_neg]
  congr 1
  funext t
  have h := inside_swap q b a t
  by_cases ht : t ∈ insideParams q b a
  · rw [Set.indicator_of_mem ht, Set.indicator_of_mem (h.mp ht), ← edgeField_neg]
    congr 1
    · module
    · module
  · rw [Set.indicator_of_notMem ht, Set.indicator_of_notMem (fun h' => ht (h.mpr h')), neg_zero]

theorem fieldIntegral_self (q : Quad ℝ) (E : Fin 4 → ℝ) (a : P2) : fieldIntegral q E a a = 0 := by
  have := fieldIntegral_swap q E a a
  linarith

/-- The part of the integral up to a parameter is the integral along the segment cut off there. -/
theorem fieldIntegral_first (q : Quad ℝ) (E : Fin 4 → ℝ) (a c : P2) (s : ℝ) (h0 : 0 < s) (h1 : s ≤ 1) :
    fieldIntegral q E a (a + s • (c - a)) =
      ∫ t in insideParams q a c ∩ Set.Iic s, edgeField q E (a + t • (c - a)) (c - a) := by
  rw [fieldIntegral_indicator, ← integral_indicator ((inside_compact q a c).measurableSet.inter measurableSet_Iic)]
  have hs := Measure.integral_comp_mul_left
    (fun t => (insideParams q a c ∩ Set.Iic s).indicator (fun t => edgeField q E (a + t • (c - a)) (c - a)) t) s
  rw [abs_of_pos (inv_pos.mpr h0), smul_eq_mul] at hs
  rw [show (∫ t, (insideParams q a c ∩ Set.Iic s).indicator (fun t => edgeField q E (a + t • (c - a)) (c - a)) t) =
    s * ∫ x, (insideParams q a c ∩ Set.Iic s).indicator (fun t => edgeField q E (a + t • (c - a)) (c - a)) (s * x) from ?_,
    ← integral_const_mul]
  · congr 1
    funext t
    have e : a + s • (c - a) - a = s • (c - a) := by module
    have hm : t ∈ insideParams q a (a + s • (c - a)) ↔ s * t ∈ insideParams q a c ∩ Set.Iic s := by
      simp only [insideParams, Set.mem_setOf_eq, Set.mem_inter_iff, Set.mem_Iic, e, smul_smul, mul_comm t s]
      constructor
      · rintro ⟨a1, a2, a3⟩
        exact ⟨⟨mul_nonneg h0.le a1, (mul_le_of_le_one_right h0.le a2).trans h1, a3⟩, mul_le_of_le_one_right h0.le a2⟩
      · rintro ⟨⟨a1, a2, a3⟩, a4⟩
        refine ⟨by by_contra hh; have := mul_neg_of_pos_of_neg h0 (not_le.mp hh); linarith, ?_, a3⟩
        by_contra hh
        have := mul_lt_mul_of_pos_left (not_le.mp hh) h0
        linarith
    by_cases ht : t ∈ insideParams q a (a + s • (c - a))
    · rw [Set.indicator_of_mem ht, Set.indicator_of_mem (hm.mp ht), e, smul_smul, mul_comm t s, edgeField_smul]
    · rw [Set.indicator_of_notMem ht, Set.indicator_of_notMem (fun h' => ht (hm.mpr h')), mul_zero]
  · rw [hs, ← mul_assoc, mul_inv_cancel₀ h0.ne', one_mul]

/-- Splitting a segment. -/
theorem fieldIntegral_split (q : Quad ℝ) (E : Fin 4 → ℝ) (a c : P2) (s : ℝ) (h0 : 0 ≤ s) (h1 : s ≤ 1) :
    fieldIntegral q E a c = fieldIntegral q E a (a + s • (c - a)) + fieldIntegral q E (a + s • (c - a)) c := by
  rcases h0.eq_or_lt with rfl | h0
  · rw [zero_smul, add_zero, fieldIntegral_self, zero_add]
  rcases h1.eq_or_lt with rfl | h1
  · rw [one_smul, show a + (c - a) = c by module, fieldIntegral_self, add_zero]
  have e2 : fieldIntegral q E (a + s • (c - a)) c =
      ∫ t in insideParams q a c ∩ Set.Ici s, edgeField q E (a + t • (c - a)) (c - a) := by
    have h := fieldIntegral_first q E c a (1 - s) (by linarith) (by linarith)
    rw [show c + (1 - s) • (a - c) = a + s • (c - a) by module] at h
    have hsw := fieldIntegral_swap q E c (a + s • (c - a))
    rw [hsw, h, ← integral_indicator ((inside_compact q a c).measurableSet.inter measurableSet_Ici),
      ← integral_indicator ((inside_compact q c a).measurableSet.inter measurableSet_Iic),
      ← integral_sub_left_eq_self
        (fun t => (insideParams q a c ∩ Set.Ici s).indicator (fun t => edgeField q E (a + t • (c - a)) (c - a)) t) volume 1,
      ← integral_neg]
    congr 1
    funext t
    have hm : t ∈ insideParams q c a ∩ Set.Iic (1 - s) ↔ 1 - t ∈ insideParams q a c ∩ Set.Ici s := by
      rw [Set.mem_inter_iff, Set.mem_inter_iff, inside_swap q c a t, Set.mem_Iic, Set.mem_Ici]
      constructor <;> rintro ⟨h, h'⟩ <;> exact ⟨h, by linarith⟩
    by_cases ht : t ∈ insideParams q c a ∩ Set.Iic (1 - s)
    · rw [Set.indicator_of_mem ht, Set.indicator_of_mem (hm.mp ht), ← edgeField_neg]
      congr 1
      · module
      · module
    · rw [Set.indicator_of_notMem ht, Set.indicator_of_notMem (fun h' => ht (hm.mpr h')), neg_zero]
  rw [fieldIntegral_first q E a c s h0 h1.le, e2]
  have hcont : Continuous fun t : ℝ => edgeField q E (a + t • (c - a)) (c - a) := by
    simp only [edgeField_line]
    exact continuous_const.add (continuous_const.mul continuous_id)
  have hint : IntegrableOn (fun t : ℝ => edgeField q E (a + t • (c - a)) (c - a)) (insideParams q a c) :=
    hcont.continuousOn.integrableOn_compact (inside_compact q a c)
  have hmeas := (inside_compact q a c).measurableSet
  have hu : insideParams q a c = insideParams q a c ∩ Set.Iic s ∪ insideParams q a c ∩ Set.Ici s := by
    rw [← Set.inter_union_distrib_left, Set.Iic_union_Ici, Set.inter_univ]
  unfold fieldIntegral
  conv_lhs => rw [hu]
  refine setIntegral_union₀ ?_ (hmeas.inter measurableSet_Ici).nullMeasurableSet (hint.mono_set Set.inter_subset_left)
    (hint.mono_set Set.inter_subset_left)
  refine measure_mono_null (t := {s}) ?_ (by simp)
  rintro t ⟨⟨-, h⟩, ⟨-, h'⟩⟩
  exact le_antisymm h h'

end Sg.FlowInterp
