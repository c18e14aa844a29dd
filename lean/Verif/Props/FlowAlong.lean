import Verif.Props.FlowStokes
/-
Property C79: what becomes of segments along a grid line, on sheared product grids.
`g` is the linear algebra library, `srt` is `std::sort` and `pert` the perturbation of the nodes of the line.
-/
namespace Sg.Props
open Sg Sg.FlowInterp Sg.QuadIntersect Sg.QuadFlows Sg.LinearSolve Sg.Triangulate Sg.FindPoint Sg.QuadLine Sg.Spec Sg.Plane Sg.Move MeasureTheory

/-- The share of an interval that a segment runs through. -/
theorem inside_share {m : Nat} {Y : Nat → ℝ} (hY : ∀ j, j < m → Y j < Y (j + 1)) {va vb : ℝ} (ha : Y 0 ≤ va ∧ va ≤ Y m) (hb : Y 0 ≤ vb ∧ vb ≤ Y m) {j : Nat}
    (hj : j < m) (e : ℝ) : ∫ _ in {t : ℝ | 0 ≤ t ∧ t ≤ 1 ∧ Y j ≤ va + t * (vb - va) ∧ va + t * (vb - va) ≤ Y (j + 1)}, e * ((vb - va) / (Y (j + 1) - Y j)) =
      e * (ramp Y j vb - ramp Y j va) := by
  set T := {t : ℝ | 0 ≤ t ∧ t ≤ 1 ∧ Y j ≤ va + t * (vb - va) ∧ va + t * (vb - va) ≤ Y (j + 1)} with hT
  have hTm : MeasurableSet T := by
    have : T = Set.Icc 0 1 ∩ (fun t : ℝ => va + t * (vb - va)) ⁻¹' Set.Icc (Y j) (Y (j + 1)) := by
      ext t; simp [hT, and_assoc]
    rw [this]
    exact measurableSet_Icc.inter ((by fun_prop : Measurable fun t : ℝ => va + t * (vb - va)) measurableSet_Icc)
  have hsub : T ⊆ Set.Icc 0 1 := fun t ht => ⟨ht.1, ht.2.1⟩
  rw [← along_one (ramp_lip (hY j hj)) va 0 vb 0]
  unfold along
  rw [← intervalIntegral.integral_const_mul, intervalIntegral.integral_of_le zero_le_one, ← integral_Icc_eq_integral_Ioc]
  have e1 : ∫ _ in T, e * ((vb - va) / (Y (j + 1) - Y j)) = ∫ t in Set.Icc (0 : ℝ) 1, T.indicator (fun _ => e * ((vb - va) / (Y (j + 1) - Y j))) t := by
    rw [setIntegral_indicator hTm, Set.inter_eq_right.mpr hsub]
  rw [e1]
  refine setIntegral_congr_ae measurableSet_Icc ?_
  filter_upwards [off_nodes m Y va vb] with t hn ht
  have hr : Y 0 ≤ va + t * (vb - va) ∧ va + t * (vb - va) ≤ Y m := by
    constructor
    · nlinarith [mul_nonneg ht.1 (sub_nonneg.mpr hb.1), mul_nonneg (sub_nonneg.mpr ht.2) (sub_nonneg.mpr ha.1)]
    · nlinarith [mul_nonneg ht.1 (sub_nonneg.mpr hb.2), mul_nonneg (sub_nonneg.mpr ht.2) (sub_nonneg.mpr ha.2)]
  rw [one_mul]
  by_cases hab : va = vb
  · subst hab
    simp [Set.indicator_apply]
  by_cases hin : t ∈ T
  · rw [Set.indicator_of_mem hin, ramp_deriv hY hj hj hn hin.2.2, if_pos rfl]
  · rw [Set.indicator_of_notMem hin]
    obtain ⟨i, hi, hc⟩ : ∃ i < m, Y i ≤ va + t * (vb - va) ∧ va + t * (vb - va) ≤ Y (i + 1) := by
      have : ∀ k, k ≤ m → va + t * (vb - va) ≤ Y k → 0 < k → ∃ i < k, Y i ≤ va + t * (vb - va) ∧ va + t * (vb - va) ≤ Y (i + 1) := by
        intro k
        induction k with
        | zero => intro _ _ h; omega
        | succ k ih =>
          intro hk hle _
          rcases le_total (Y k) (va + t * (vb - va)) with h | h
          · exact ⟨k, by omega, h, hle⟩
          · rcases Nat.eq_zero_or_pos k with h0 | h0
            · subst h0; exact ⟨0, by omega, hr.1, hle⟩
            · obtain ⟨i, hi, hc⟩ := ih (by omega) h h0
              exact ⟨i, by omega, hc⟩
      exact this m le_rfl hr.2 (by omega)
    have hne : j ≠ i := by
      rintro rfl
      exact hin ⟨ht.1, ht.2, hc⟩
    rw [ramp_deriv hY hi hj hn hc, if_neg hne, mul_zero]

section
variable {n0 n1 : Nat} {X Y : Nat → ℝ} {c e0 e1 : P2} {xs ys : List ℝ}

/-- The cells of a column have the grid line `i` as a side, or nothing of it. -/
theorem field_along (hT : TensorGrid n0 n1 X Y c e0 e1 xs ys) (x y : List ℝ) {i : Nat} (hi : i < n0) {va vb : ℝ} (ha : Y 0 ≤ va ∧ va ≤ Y (n1 - 1))
    (hb : Y 0 ≤ vb ∧ vb ≤ Y (n1 - 1)) {i' j : Nat} (hi' : i' < n0 - 1) (hj : j < n1 - 1) :
    fieldIntegral (gridQuad n1 xs ys i' j) (edgeData n1 x y i' j) (c + X i • e0 + va • e1) (c + X i • e0 + vb • e1) =
      (if i' = i then y.getD (yEdge n1 i j) 0 * (ramp Y j vb - ramp Y j va) else 0) +
        if i' + 1 = i then y.getD (yEdge n1 i j) 0 * (ramp Y j vb - ramp Y j va) else 0 := by
  have hX : ∀ i, i < n0 - 1 → X i < X (i + 1) := fun i hi => hT.incX i (by omega)
  have hY : ∀ j, j < n1 - 1 → Y j < Y (j + 1) := fun j hj => hT.incY j (by omega)
  have hline : ∀ t : ℝ, c + X i • e0 + va • e1 + t • (c + X i • e0 + vb • e1 - (c + X i • e0 + va • e1)) = c + X i • e0 + (va + t * (vb - va)) • e1 := by
    intro t; module
  have hdir : c + X i • e0 + vb • e1 - (c + X i • e0 + va • e1) = (0 : ℝ) • e0 + (vb - va) • e1 := by module
  have hI : insideParams (gridQuad n1 xs ys i' j) (c + X i • e0 + va • e1) (c + X i • e0 + vb • e1) =
      {t : ℝ | (X i' ≤ X i ∧ X i ≤ X (i' + 1)) ∧ 0 ≤ t ∧ t ≤ 1 ∧ Y j ≤ va + t * (vb - va) ∧ va + t * (vb - va) ≤ Y (j + 1)} := by
    ext t
    unfold insideParams
    simp only [Set.mem_ofPred_eq]
    rw [hline, tensor_region hT hi' hj]
    tauto
  unfold fieldIntegral
  simp only [hline]
  rw [hI, hdir]
  simp only [tensor_edgeField hT hi' hj, zero_div, mul_zero, zero_add]
  have d := hX i' hi'
  have hne : X (i' + 1) - X i' ≠ 0 := by linarith
  have mono : ∀ p q, p < q → q < n0 → X p < X q := by
    intro p q hpq hq
    induction q with
    | zero => omega
    | succ q ih =>
      rcases Nat.lt_or_ge p q with h | h
      · exact (ih h (by omega)).trans (hX q (by omega))
      · have : p = q := by omega
        subst this; exact hX p (by omega)
  by_cases h1 : i' = i
  · subst h1
    rw [if_pos rfl, if_neg (by omega), add_zero, sub_self, zero_div, sub_zero, one_mul, zero_mul, add_zero, ← inside_share hY ha hb hj]
    congr 2
    ext t
    simp [d.le]
  · by_cases h2 : i' + 1 = i
    · subst h2
      rw [if_neg h1, if_pos rfl, zero_add, div_self hne, sub_self, zero_mul, zero_add, one_mul, ← inside_share hY ha hb hj]
      congr 2
      ext t
      simp [d.le]
    · rw [if_neg h1, if_neg h2, add_zero]
      have : {t : ℝ | (X i' ≤ X i ∧ X i ≤ X (i' + 1)) ∧ 0 ≤ t ∧ t ≤ 1 ∧ Y j ≤ va + t * (vb - va) ∧ va + t * (vb - va) ≤ Y (j + 1)} = ∅ := by
        ext t
        simp only [Set.mem_ofPred_eq, Set.mem_empty_iff_false, iff_false]
        rintro ⟨⟨h3, h4⟩, -⟩
        rcases Nat.lt_or_ge i i' with h | h
        · exact absurd (mono i i' h (by omega)) (not_lt.mpr h3)
        · exact absurd (mono (i' + 1) i (by omega) hi) (not_lt.mpr h4)
      rw [this, Measure.restrict_empty, integral_zero_measure]

/-- **C79**, in real numbers, on a sheared product grid, any edge data: a segment along the grid line `i` is counted once for each column of cells it borders on, so
twice if the line is inside the grid and once if it is the first or the last: its flow is that number times the sum of the data on the edges of the line, each times the
share of the edge that the segment runs through (with the sign of the direction).  (The segment is to be clear of the tolerance and to meet a cell in more than a
point.) -/
theorem C79_along_partial (pert : Nat → Nat → Nat → ℝ) (g : Gels ℝ) (hg : GelsContract g) (srt : List ℝ → List ℝ)
    (hsrt : ∀ l, SortsTo l (srt l)) (h0 : 2 ≤ n0) (h1 : 2 ≤ n1) (hf : n0 * n1 ≤ 1073741824)
    (hx : n0 * n1 ≤ xs.length) (hy : n0 * n1 ≤ ys.length) (hT : TensorGrid n0 n1 X Y c e0 e1 xs ys)
    (n : Nat) (hn : 1 ≤ n) (us vs : List ℝ) (hu : n ≤ us.length) (hv : n ≤ vs.length)
    (x y : List ℝ) (hxl : (n0 - 1) * n1 ≤ x.length) (hyl : n0 * (n1 - 1) ≤ y.length) (d : List ℝ) (hd : n - 1 ≤ d.length) :
    ∃ d', flowWith pert g srt [] n0 n1 xs ys n us vs 1 x y d = .ok d' ∧
      ∀ k < n - 1, ∀ i < n0, ∀ va vb, movedNode pert n us vs k = c + X i • e0 + va • e1 → movedNode pert n us vs (k + 1) = c + X i • e0 + vb • e1 →
        Y 0 ≤ va ∧ va ≤ Y (n1 - 1) → Y 0 ≤ vb ∧ vb ≤ Y (n1 - 1) → MetSegment n0 n1 xs ys (movedNode pert n us vs k) (movedNode pert n us vs (k + 1)) →
        d'[k]? = some ((if 0 < i ∧ i < n0 - 1 then 2 else 1) * ∑ j ∈ Finset.range (n1 - 1), y.getD (yEdge n1 i j) 0 * (ramp Y j vb - ramp Y j va)) := by
  obtain ⟨d', e, h⟩ := C79_integral_partial pert g hg srt hsrt n0 n1 h0 h1 hf xs ys hx hy n hn us vs hu hv
    (fun i hi j hj => tensor_parallelogram (i := i) (j := j) hT hi hj) x y hxl hyl d hd
  refine ⟨d', e, fun k hk i hi va vb ea eb ha hb hm => ?_⟩
  rw [h k hk _ _ rfl rfl hm.met hm.clear, ea, eb]
  congr 1
  set S := ∑ j ∈ Finset.range (n1 - 1), y.getD (yEdge n1 i j) 0 * (ramp Y j vb - ramp Y j va) with hS
  have hcol : ∀ i' ∈ Finset.range (n0 - 1), ∑ j ∈ Finset.range (n1 - 1),
      fieldIntegral (gridQuad n1 xs ys i' j) (edgeData n1 x y i' j) (c + X i • e0 + va • e1) (c + X i • e0 + vb • e1) =
      (if i' = i then S else 0) + if i' + 1 = i then S else 0 := by
    intro i' hi'
    rw [Finset.sum_congr rfl fun j hj => field_along hT x y hi ha hb (Finset.mem_range.mp hi') (Finset.mem_range.mp hj), Finset.sum_add_distrib]
    congr 1 <;> split_ifs <;> simp [hS]
  rw [Finset.sum_congr rfl hcol, Finset.sum_add_distrib, Finset.sum_ite_eq']
  have hleft : ∑ i' ∈ Finset.range (n0 - 1), (if i' + 1 = i then S else 0) = if 0 < i then S else 0 := by
    by_cases hpos : 0 < i
    · rw [if_pos hpos, Finset.sum_eq_single_of_mem (i - 1) (Finset.mem_range.mpr (by omega)), if_pos (by omega)]
      intro b _ hb
      rw [if_neg (by omega)]
    · rw [if_neg hpos]
      exact Finset.sum_eq_zero fun b _ => by rw [if_neg (by omega)]
  rw [hleft]
  simp only [Finset.mem_range]
  by_cases a1 : i < n0 - 1 <;> by_cases a2 : 0 < i
  · rw [if_pos a1, if_pos a2, if_pos ⟨a2, a1⟩]; ring
  · rw [if_pos a1, if_neg a2, if_neg (by omega)]; ring
  · rw [if_neg a1, if_pos a2, if_neg (by omega)]; ring
  · omega

/-- The cells of a row have the grid line `j` of the other family as a side, or nothing of it. -/
theorem field_across (hT : TensorGrid n0 n1 X Y c e0 e1 xs ys) (x y : List ℝ) {j : Nat} (hj : j < n1) {ua ub : ℝ} (ha : X 0 ≤ ua ∧ ua ≤ X (n0 - 1))
    (hb : X 0 ≤ ub ∧ ub ≤ X (n0 - 1)) {i j' : Nat} (hi : i < n0 - 1) (hj' : j' < n1 - 1) :
    fieldIntegral (gridQuad n1 xs ys i j') (edgeData n1 x y i j') (c + ua • e0 + Y j • e1) (c + ub • e0 + Y j • e1) =
      (if j' = j then x.getD (xEdge n1 i j) 0 * (ramp X i ub - ramp X i ua) else 0) +
        if j' + 1 = j then x.getD (xEdge n1 i j) 0 * (ramp X i ub - ramp X i ua) else 0 := by
  have hX : ∀ i, i < n0 - 1 → X i < X (i + 1) := fun i hi => hT.incX i (by omega)
  have hY : ∀ j, j < n1 - 1 → Y j < Y (j + 1) := fun j hj => hT.incY j (by omega)
  have hline : ∀ t : ℝ, c + ua • e0 + Y j • e1 + t • (c + ub • e0 + Y j • e1 - (c + ua • e0 + Y j • e1)) = c + (ua + t * (ub - ua)) • e0 + Y j • e1 := by
    intro t; module
  have hdir : c + ub • e0 + Y j • e1 - (c + ua • e0 + Y j • e1) = (ub - ua) • e0 + (0 : ℝ) • e1 := by module
  have hI : insideParams (gridQuad n1 xs ys i j') (c + ua • e0 + Y j • e1) (c + ub • e0 + Y j • e1) =
      {t : ℝ | (Y j' ≤ Y j ∧ Y j ≤ Y (j' + 1)) ∧ 0 ≤ t ∧ t ≤ 1 ∧ X i ≤ ua + t * (ub - ua) ∧ ua + t * (ub - ua) ≤ X (i + 1)} := by
    ext t
    unfold insideParams
    simp only [Set.mem_ofPred_eq]
    rw [hline, tensor_region hT hi hj']
    tauto
  unfold fieldIntegral
  simp only [hline]
  rw [hI, hdir]
  simp only [tensor_edgeField hT hi hj', zero_div, mul_zero, add_zero]
  have d := hY j' hj'
  have hne : Y (j' + 1) - Y j' ≠ 0 := by linarith
  have mono : ∀ p q, p < q → q < n1 → Y p < Y q := by
    intro p q hpq hq
    induction q with
    | zero => omega
    | succ q ih =>
      rcases Nat.lt_or_ge p q with h | h
      · exact (ih h (by omega)).trans (hY q (by omega))
      · have : p = q := by omega
        subst this; exact hY p (by omega)
  by_cases h1 : j' = j
  · subst h1
    rw [if_pos rfl, if_neg (by omega), add_zero, sub_self, zero_div, sub_zero, one_mul, zero_mul, add_zero, ← inside_share hX ha hb hi]
    congr 2
    ext t
    simp [d.le]
  · by_cases h2 : j' + 1 = j
    · subst h2
      rw [if_neg h1, if_pos rfl, zero_add, div_self hne, sub_self, zero_mul, zero_add, one_mul, ← inside_share hX ha hb hi]
      congr 2
      ext t
      simp [d.le]
    · rw [if_neg h1, if_neg h2, add_zero]
      have : {t : ℝ | (Y j' ≤ Y j ∧ Y j ≤ Y (j' + 1)) ∧ 0 ≤ t ∧ t ≤ 1 ∧ X i ≤ ua + t * (ub - ua) ∧ ua + t * (ub - ua) ≤ X (i + 1)} = ∅ := by
        ext t
        simp only [Set.mem_ofPred_eq, Set.mem_empty_iff_false, iff_false]
        rintro ⟨⟨h3, h4⟩, -⟩
        rcases Nat.lt_or_ge j j' with h | h
        · exact absurd (mono j j' h (by omega)) (not_lt.mpr h3)
        · exact absurd (mono (j' + 1) j (by omega) hj) (not_lt.mpr h4)
      rw [this, Measure.restrict_empty, integral_zero_measure]

/-- **C79**, the same for the other family of grid lines: a segment along the grid line `j` is counted once for each row of cells it borders on. -/
theorem C79_across_partial (pert : Nat → Nat → Nat → ℝ) (g : Gels ℝ) (hg : GelsContract g) (srt : List ℝ → List ℝ)
    (hsrt : ∀ l, SortsTo l (srt l)) (h0 : 2 ≤ n0) (h1 : 2 ≤ n1) (hf : n0 * n1 ≤ 1073741824)
    (hx : n0 * n1 ≤ xs.length) (hy : n0 * n1 ≤ ys.length) (hT : TensorGrid n0 n1 X Y c e0 e1 xs ys)
    (n : Nat) (hn : 1 ≤ n) (us vs : List ℝ) (hu : n ≤ us.length) (hv : n ≤ vs.length)
    (x y : List ℝ) (hxl : (n0 - 1) * n1 ≤ x.length) (hyl : n0 * (n1 - 1) ≤ y.length) (d : List ℝ) (hd : n - 1 ≤ d.length) :
    ∃ d', flowWith pert g srt [] n0 n1 xs ys n us vs 1 x y d = .ok d' ∧
      ∀ k < n - 1, ∀ j < n1, ∀ ua ub, movedNode pert n us vs k = c + ua • e0 + Y j • e1 → movedNode pert n us vs (k + 1) = c + ub • e0 + Y j • e1 →
        X 0 ≤ ua ∧ ua ≤ X (n0 - 1) → X 0 ≤ ub ∧ ub ≤ X (n0 - 1) → MetSegment n0 n1 xs ys (movedNode pert n us vs k) (movedNode pert n us vs (k + 1)) →
        d'[k]? = some ((if 0 < j ∧ j < n1 - 1 then 2 else 1) * ∑ i ∈ Finset.range (n0 - 1), x.getD (xEdge n1 i j) 0 * (ramp X i ub - ramp X i ua)) := by
  obtain ⟨d', e, h⟩ := C79_integral_partial pert g hg srt hsrt n0 n1 h0 h1 hf xs ys hx hy n hn us vs hu hv
    (fun i hi j hj => tensor_parallelogram (i := i) (j := j) hT hi hj) x y hxl hyl d hd
  refine ⟨d', e, fun k hk j hj ua ub ea eb ha hb hm => ?_⟩
  rw [h k hk _ _ rfl rfl hm.met hm.clear, ea, eb, Finset.sum_comm]
  congr 1
  set S := ∑ i ∈ Finset.range (n0 - 1), x.getD (xEdge n1 i j) 0 * (ramp X i ub - ramp X i ua) with hS
  have hrow : ∀ j' ∈ Finset.range (n1 - 1), ∑ i ∈ Finset.range (n0 - 1),
      fieldIntegral (gridQuad n1 xs ys i j') (edgeData n1 x y i j') (c + ua • e0 + Y j • e1) (c + ub • e0 + Y j • e1) =
      (if j' = j then S else 0) + if j' + 1 = j then S else 0 := by
    intro j' hj'
    rw [Finset.sum_congr rfl fun i hi => field_across hT x y hj ha hb (Finset.mem_range.mp hi) (Finset.mem_range.mp hj'), Finset.sum_add_distrib]
    congr 1 <;> split_ifs <;> simp [hS]
  rw [Finset.sum_congr rfl hrow, Finset.sum_add_distrib, Finset.sum_ite_eq']
  have hleft : ∑ j' ∈ Finset.range (n1 - 1), (if j' + 1 = j then S else 0) = if 0 < j then S else 0 := by
    by_cases hpos : 0 < j
    · rw [if_pos hpos, Finset.sum_eq_single_of_mem (j - 1) (Finset.mem_range.mpr (by omega)), if_pos (by omega)]
      intro b _ hb
      rw [if_neg (by omega)]
    · rw [if_neg hpos]
      exact Finset.sum_eq_zero fun b _ => by rw [if_neg (by omega)]
  rw [hleft]
  simp only [Finset.mem_range]
  by_cases a1 : j < n1 - 1 <;> by_cases a2 : 0 < j
  · rw [if_pos a1, if_pos a2, if_pos ⟨a2, a1⟩]; ring
  · rw [if_pos a1, if_neg a2, if_neg (by omega)]; ring
  · rw [if_neg a1, if_pos a2, if_neg (by omega)]; ring
  · omega

end

/-- The segment from (1, 0) to (1, 2) along the inner grid line of the grid of 3 times 3 integer nodes: any data, the flow is twice the sum over the two edges. -/
example (g : Gels ℝ) (hg : GelsContract g) (srt : List ℝ → List ℝ) (hsrt : ∀ l, SortsTo l (srt l)) (x y : List ℝ) (hxl : 6 ≤ x.length) (hyl : 6 ≤ y.length) :
    ∃ d', flowWith noPert g srt [] 3 3 [0, 0, 0, 1, 1, 1, 2, 2, 2] [0, 1, 2, 0, 1, 2, 0, 1, 2] 2 [1, 1] [0, 2] 1 x y [7] = .ok d' ∧
      d'[0]? = some (2 * (y.getD (yEdge 3 1 0) 0 + y.getD (yEdge 3 1 1) 0)) := by
  obtain ⟨d', e, h⟩ := C79_along_partial noPert g hg srt hsrt (by norm_num) (by norm_num) (by norm_num) (by simp) (by simp) square_tensor 2 (by norm_num) [1, 1] [0, 2]
    (by simp) (by simp) x y hxl hyl [7] (by simp)
  refine ⟨d', e, ?_⟩
  rw [h 0 (by norm_num) 1 (by norm_num) 0 2 (by simp [movedNode, noPert]) (by simp [movedNode, noPert]) (by norm_num) (by norm_num) ⟨?_, ?_⟩]
  · norm_num [Finset.sum_range_succ, ramp]
  · have e1 : movedNode noPert 2 ([1, 1] : List ℝ) [0, 2] 0 = (1, 0) := by simp [movedNode, noPert]
    have e2 : movedNode noPert 2 ([1, 1] : List ℝ) [0, 2] (0 + 1) = (1, 2) := by simp [movedNode, noPert]
    rw [e1, e2]
    refine ⟨0, by norm_num, 0, by norm_num, 0, ⟨le_rfl, zero_le_one, ?_⟩, 1 / 2, ⟨by norm_num, by norm_num, ?_⟩, by norm_num⟩
    · simpa using square_inside (i := 0) (j := 0) (by norm_num) (by norm_num) (u := 1) (v := 0) (by norm_num) (by norm_num)
    · simpa using square_inside (i := 0) (j := 0) (by norm_num) (by norm_num) (u := 1) (v := 1) (by norm_num) (by norm_num)
  · have e1 : movedNode noPert 2 ([1, 1] : List ℝ) [0, 2] 0 = (1, 0) := by simp [movedNode, noPert]
    have e2 : movedNode noPert 2 ([1, 1] : List ℝ) [0, 2] (0 + 1) = (1, 2) := by simp [movedNode, noPert]
    intro i hi j hj
    have hi : i < 2 := hi
    have hj : j < 2 := hj
    have hc : ZConvex (zcell i j) ∧ ZSmall (zcell i j) := by
      interval_cases i <;> interval_cases j <;> exact ⟨by decide, by decide⟩
    rw [square_cell i hi j hj, e1, e2]
    simpa using clearLine_int hc.1 hc.2 (1, 0) (1, 2) (by norm_num) (by norm_num) (Or.inr (by decide))

/-- The segment from (0, 2) to (2, 2) along the last grid line of the other family: counted once. -/
example (g : Gels ℝ) (hg : GelsContract g) (srt : List ℝ → List ℝ) (hsrt : ∀ l, SortsTo l (srt l)) (x y : List ℝ) (hxl : 6 ≤ x.length) (hyl : 6 ≤ y.length) :
    ∃ d', flowWith noPert g srt [] 3 3 [0, 0, 0, 1, 1, 1, 2, 2, 2] [0, 1, 2, 0, 1, 2, 0, 1, 2] 2 [0, 2] [2, 2] 1 x y [7] = .ok d' ∧
      d'[0]? = some (x.getD (xEdge 3 0 2) 0 + x.getD (xEdge 3 1 2) 0) := by
  obtain ⟨d', e, h⟩ := C79_across_partial noPert g hg srt hsrt (by norm_num) (by norm_num) (by norm_num) (by simp) (by simp) square_tensor 2 (by norm_num) [0, 2] [2, 2]
    (by simp) (by simp) x y hxl hyl [7] (by simp)
  have e1 : movedNode noPert 2 ([0, 2] : List ℝ) [2, 2] 0 = (0, 2) := by simp [movedNode, noPert]
  have e2 : movedNode noPert 2 ([0, 2] : List ℝ) [2, 2] (0 + 1) = (2, 2) := by simp [movedNode, noPert]
  refine ⟨d', e, ?_⟩
  rw [h 0 (by norm_num) 2 (by norm_num) 0 2 (by rw [e1]; simp) (by rw [e2]; simp) (by norm_num) (by norm_num) ⟨?_, ?_⟩]
  · norm_num [Finset.sum_range_succ, ramp]
  · rw [e1, e2]
    refine ⟨0, by norm_num, 1, by norm_num, 0, ⟨le_rfl, zero_le_one, ?_⟩, 1 / 2, ⟨by norm_num, by norm_num, ?_⟩, by norm_num⟩
    · have := square_inside (i := 0) (j := 1) (by norm_num) (by norm_num) (u := 0) (v := 1) (by norm_num) (by norm_num)
      norm_num at this ⊢
      exact this
    · have := square_inside (i := 0) (j := 1) (by norm_num) (by norm_num) (u := 1) (v := 1) (by norm_num) (by norm_num)
      norm_num at this ⊢
      exact this
  · intro i hi j hj
    have hi : i < 2 := hi
    have hj : j < 2 := hj
    have hc : ZConvex (zcell i j) ∧ ZSmall (zcell i j) := by
      interval_cases i <;> interval_cases j <;> exact ⟨by decide, by decide⟩
    rw [square_cell i hi j hj, e1, e2]
    simpa using clearLine_int hc.1 hc.2 (0, 2) (2, 2) (by norm_num) (by norm_num) (Or.inr (by decide))

end Sg.Props
