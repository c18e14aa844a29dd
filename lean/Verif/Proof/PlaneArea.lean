import Verif.Model.Triangulate
import Mathlib.MeasureTheory.Measure.Lebesgue.EqHaar
import Mathlib.MeasureTheory.Measure.Haar.OfBasis
import Mathlib.MeasureTheory.Integral.IntervalIntegral.FundThmCalculus
import Mathlib.Analysis.SpecialFunctions.Integrals.Basic
import Mathlib.Analysis.Convex.Combination
import Mathlib.Analysis.Convex.Topology
import Mathlib.Analysis.Convex.Join
import Mathlib.LinearAlgebra.Matrix.Determinant.Basic
/-
Triangles in the plane: half-plane description and area.
-/
namespace Sg.Plane
open MeasureTheory Sg.Triangulate

abbrev P2 := ℝ × ℝ

instance : Measure.IsAddHaarMeasure (volume : Measure P2) := Measure.prod.instIsAddHaarMeasure _ _

/-- The closed triangle with corners `a`, `b`, `c`. -/
def tri (a b c : P2) : Set P2 := convexHull ℝ {a, b, c}

theorem cross_combo (a b p q : P2) (s t : ℝ) (h : s + t = 1) :
    cross a b (s • p + t • q) = s * cross a b p + t * cross a b q := by
  obtain rfl : s = 1 - t := by linarith
  simp only [cross, Prod.smul_fst, Prod.smul_snd, Prod.fst_add, Prod.snd_add, smul_eq_mul]
  ring

/-- Half-planes are convex. -/
theorem convex_halfplane (a b : P2) : Convex ℝ {x : P2 | 0 ≤ cross a b x} := by
  intro x hx y hy s t hs ht hst
  simp only [Set.mem_ofPred_eq] at *
  rw [cross_combo _ _ _ _ _ _ hst]
  positivity

theorem mem_tri {a b c x : P2} (u v w : ℝ) (hu : 0 ≤ u) (hv : 0 ≤ v) (hw : 0 ≤ w) (h1 : u + v + w = 1)
    (hx : u • a + v • b + w • c = x) : x ∈ tri a b c := by
  unfold tri
  rw [convexHull_insert (by simp), convexHull_pair]
  rw [mem_convexJoin]
  refine ⟨a, rfl, ?_⟩
  by_cases h : v + w = 0
  · have hv0 : v = 0 := by linarith
    have hw0 : w = 0 := by linarith
    have hu1 : u = 1 := by linarith
    refine ⟨b, left_mem_segment _ _ _, ?_⟩
    subst hx hv0 hw0 hu1
    simpa using left_mem_segment ℝ a b
  · refine ⟨(v / (v + w)) • b + (w / (v + w)) • c, ⟨v / (v + w), w / (v + w), by positivity, by positivity, ?_, rfl⟩,
      ⟨u, v + w, hu, by positivity, by linarith, ?_⟩⟩
    · field_simp
    · rw [← hx, smul_add, smul_smul, smul_smul, mul_div_cancel₀ _ h, mul_div_cancel₀ _ h, add_assoc]

theorem tri_vertices (a b c : P2) : a ∈ tri a b c ∧ b ∈ tri a b c ∧ c ∈ tri a b c :=
  ⟨subset_convexHull ℝ _ (by simp), subset_convexHull ℝ _ (by simp), subset_convexHull ℝ _ (by simp)⟩

theorem cross_cyc (a b c : P2) : cross b c a = cross a b c := by simp only [cross]; ring
theorem cross_swap (a b c : P2) : cross b a c = - cross a b c := by simp only [cross]; ring
theorem cross_self_right (a b : P2) : cross a b b = 0 := by simp only [cross]; ring
theorem cross_self_left (a b : P2) : cross a b a = 0 := by simp only [cross]; ring
theorem cross_aa (a x : P2) : cross a a x = 0 := by simp only [cross]; ring

/-- A triangle is the intersection of three half-planes. -/
theorem mem_tri_iff {a b c : P2} (h : 0 < cross a b c) (x : P2) :
    x ∈ tri a b c ↔ 0 ≤ cross a b x ∧ 0 ≤ cross b c x ∧ 0 ≤ cross c a x := by
  constructor
  · intro hx
    have key : ∀ p q : P2, 0 ≤ cross p q a → 0 ≤ cross p q b → 0 ≤ cross p q c → 0 ≤ cross p q x := by
      intro p q ha hb hc
      have hsub : tri a b c ⊆ {x : P2 | 0 ≤ cross p q x} := by
        apply convexHull_min _ (convex_halfplane p q)
        intro y hy
        simp only [Set.mem_insert_iff, Set.mem_singleton_iff] at hy
        rcases hy with rfl | rfl | rfl <;> assumption
      exact hsub hx
    have e1 : cross b c a = cross a b c := cross_cyc a b c
    have e2 : cross c a b = cross a b c := by rw [← cross_cyc c a b]
    refine ⟨key _ _ (cross_self_left _ _).ge (cross_self_right _ _).ge h.le,
      key _ _ (by linarith) (cross_self_left _ _).ge (cross_self_right _ _).ge,
      key _ _ (cross_self_right _ _).ge (by linarith) (cross_self_left _ _).ge⟩
  · rintro ⟨h1, h2, h3⟩
    refine mem_tri (cross b c x / cross a b c) (cross c a x / cross a b c) (cross a b x / cross a b c)
      (by positivity) (by positivity) (by positivity) ?_ ?_
    · field_simp
      simp only [cross]; ring
    · have h' := h.ne'
      ext
      · simp only [Prod.smul_fst, Prod.fst_add, smul_eq_mul]
        field_simp
        simp only [cross]; ring
      · simp only [Prod.smul_snd, Prod.snd_add, smul_eq_mul]
        field_simp
        simp only [cross]; ring

/-- The standard triangle. -/
def stdTri : Set P2 := {p | 0 ≤ p.1 ∧ 0 ≤ p.2 ∧ p.1 + p.2 ≤ 1}

theorem measurableSet_stdTri : MeasurableSet stdTri := by
  apply IsClosed.measurableSet
  apply IsClosed.inter (isClosed_le continuous_const continuous_fst)
  exact IsClosed.inter (isClosed_le continuous_const continuous_snd)
    (isClosed_le (continuous_fst.add continuous_snd) continuous_const)

theorem volume_stdTri : volume stdTri = ENNReal.ofReal (1 / 2) := by
  rw [Measure.volume_eq_prod, Measure.prod_apply measurableSet_stdTri]
  have h1 : ∀ x : ℝ, volume (Prod.mk x ⁻¹' stdTri) = (Set.Icc (0 : ℝ) 1).indicator (fun x => ENNReal.ofReal (1 - x)) x := by
    intro x
    by_cases hx : x ∈ Set.Icc (0 : ℝ) 1
    · rw [Set.indicator_of_mem hx]
      have : Prod.mk x ⁻¹' stdTri = Set.Icc 0 (1 - x) := by
        ext y
        simp only [stdTri, Set.mem_preimage, Set.mem_ofPred_eq, Set.mem_Icc]
        constructor
        · rintro ⟨_, h2, h3⟩; exact ⟨h2, by linarith⟩
        · rintro ⟨h2, h3⟩; exact ⟨hx.1, h2, by linarith⟩
      rw [this, Real.volume_Icc, sub_zero]
    · rw [Set.indicator_of_notMem hx]
      have : Prod.mk x ⁻¹' stdTri = ∅ := by
        ext y
        simp only [stdTri, Set.mem_preimage, Set.mem_ofPred_eq, Set.mem_empty_iff_false, iff_false]
        rintro ⟨h1, h2, h3⟩
        exact hx ⟨h1, by linarith⟩
      rw [this, measure_empty]
  simp_rw [h1]
  rw [lintegral_indicator measurableSet_Icc]
  rw [← ofReal_integral_eq_lintegral_ofReal]
  · congr 1
    rw [integral_Icc_eq_integral_Ioc, ← intervalIntegral.integral_of_le zero_le_one]
    rw [intervalIntegral.integral_sub (by simp) (by simp)]
    simp
    norm_num
  · exact (continuous_const.sub continuous_id).continuousOn.integrableOn_compact isCompact_Icc
  · refine (ae_restrict_iff' measurableSet_Icc).mpr (ae_of_all _ ?_)
    rintro x ⟨_, h⟩
    simp only [Pi.zero_apply]
    linarith

/-- The linear map with columns `u`, `v`. -/
def colMap (u v : P2) : P2 →ₗ[ℝ] P2 where
  toFun p := (p.1 * u.1 + p.2 * v.1, p.1 * u.2 + p.2 * v.2)
  map_add' p q := by ext <;> simp <;> ring
  map_smul' r p := by ext <;> simp <;> ring

theorem det_colMap (u v : P2) : LinearMap.det (colMap u v) = u.1 * v.2 - u.2 * v.1 := by
  rw [← LinearMap.det_toMatrix (Module.Basis.finTwoProd ℝ), Matrix.det_fin_two]
  simp [LinearMap.toMatrix_apply, colMap, Module.Basis.finTwoProd_zero, Module.Basis.finTwoProd_one]
  ring

theorem tri_eq_image (a b c : P2) :
    tri a b c = (fun x => a + x) '' (colMap (b - a) (c - a) '' stdTri) := by
  apply Set.Subset.antisymm
  · have hc : Convex ℝ ((fun x => a + x) '' (colMap (b - a) (c - a) '' stdTri)) := by
      have h0 : Convex ℝ stdTri := by
        rintro ⟨x1, x2⟩ ⟨hx1, hx2, hx3⟩ ⟨y1, y2⟩ ⟨hy1, hy2, hy3⟩ s t hs ht hst
        simp only [stdTri, Set.mem_ofPred_eq, Prod.smul_mk, Prod.mk_add_mk, smul_eq_mul] at *
        refine ⟨by positivity, by positivity, ?_⟩
        nlinarith
      exact (h0.linear_image _).translate a
    apply convexHull_min _ hc
    intro y hy
    simp only [Set.mem_insert_iff, Set.mem_singleton_iff] at hy
    rcases hy with rfl | rfl | rfl
    · exact ⟨0, ⟨(0, 0), ⟨by norm_num, by norm_num, by norm_num⟩, by ext <;> simp [colMap]⟩, by simp⟩
    · exact ⟨y - a, ⟨(1, 0), ⟨by norm_num, by norm_num, by norm_num⟩, by ext <;> simp [colMap]⟩, by simp⟩
    · exact ⟨y - a, ⟨(0, 1), ⟨by norm_num, by norm_num, by norm_num⟩, by ext <;> simp [colMap]⟩, by simp⟩
  · rintro _ ⟨_, ⟨p, ⟨h1, h2, h3⟩, rfl⟩, rfl⟩
    refine mem_tri (1 - p.1 - p.2) p.1 p.2 (by linarith) h1 h2 (by ring) ?_
    ext <;> simp [colMap] <;> ring

/-- Area of a triangle. -/
theorem volume_tri (a b c : P2) : volume (tri a b c) = ENNReal.ofReal (|cross a b c| / 2) := by
  rw [tri_eq_image, Set.image_add_left, measure_preimage_add, Measure.addHaar_image_linearMap, det_colMap, volume_stdTri,
    ← ENNReal.ofReal_mul (abs_nonneg _)]
  congr 1
  simp only [cross, Prod.fst_sub, Prod.snd_sub]
  ring

/-- A line has no area. -/
theorem volume_line {a b : P2} (h : a ≠ b) : volume {x : P2 | cross a b x = 0} = 0 := by
  let s : AffineSubspace ℝ P2 :=
    { carrier := {x | cross a b x = 0}
      smul_vsub_vadd_mem' := by
        intro r p q w hp hq hw
        simp only [Set.mem_ofPred_eq, cross] at *
        simp only [vsub_eq_sub, vadd_eq_add, Prod.fst_add, Prod.snd_add, Prod.smul_fst, Prod.smul_snd, Prod.fst_sub,
          Prod.snd_sub, smul_eq_mul]
        linear_combination hw + r * (hp - hq) }
  have hs : (s : Set P2) = {x | cross a b x = 0} := rfl
  rw [← hs]
  apply Measure.addHaar_affineSubspace
  intro htop
  have hall : ∀ x : P2, cross a b x = 0 := by
    intro x
    have : x ∈ s := by rw [htop]; trivial
    exact this
  apply h
  have h1 := hall (a.1 + 1, a.2)
  have h2 := hall (a.1, a.2 + 1)
  simp only [cross] at h1 h2
  ext <;> linarith

theorem measurableSet_halfplane (a b : P2) : MeasurableSet {x : P2 | 0 ≤ cross a b x} := by
  apply IsClosed.measurableSet
  apply isClosed_le continuous_const
  unfold cross
  fun_prop

end Sg.Plane
