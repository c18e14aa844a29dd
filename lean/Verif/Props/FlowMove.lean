import Verif.Proof.MoveBound
import Verif.Props.FlowAccuracy
import Verif.Props.FlowReverse
/-
Property C80 for any edge data on sheared product grids.
`g` is the linear algebra library, `srt` is `std::sort` and `pert` the perturbation of the nodes of the line.
-/
namespace Sg.Props
open Sg Sg.FlowInterp Sg.QuadIntersect Sg.QuadFlows Sg.LinearSolve Sg.Triangulate Sg.FindPoint Sg.QuadLine Sg.Spec Sg.Plane Sg.Move MeasureTheory

theorem ramp_lip {X : Nat → ℝ} {i : Nat} (h : X i < X (i + 1)) : Lip (1 / (X (i + 1) - X i)) (ramp X i) :=
  ⟨by apply div_nonneg <;> linarith, ramp_lipschitz h⟩

theorem pl_lip (m : Nat) (X : Nat → ℝ) (hX : ∀ i < m, X i < X (i + 1)) (f : Nat → ℝ) : ∃ L, Lip L (piecewiseLinear m X f) := by
  obtain ⟨L, h0, h⟩ := pl_lipschitz m X hX f
  exact ⟨L, h0, h⟩

theorem pl_bound (m : Nat) (X : Nat → ℝ) (f : Nat → ℝ) : ∃ M, ∀ u, |piecewiseLinear m X f u| ≤ M := by
  refine ⟨|f 0| + ∑ i ∈ Finset.range m, |f (i + 1) - f i|, fun u => (abs_add_le _ _).trans (add_le_add_right ?_ _)⟩
  refine (Finset.abs_sum_le_sum_abs _ _).trans (Finset.sum_le_sum fun i _ => ?_)
  rw [abs_mul]
  exact mul_le_of_le_one_right (abs_nonneg _) (ramp_bounds X i u)

/-- The derivative of a ramp along a segment, at a place where the segment is not at a node or does not move. -/
theorem ramp_deriv {m : Nat} {X : Nat → ℝ} (hX : ∀ i, i < m → X i < X (i + 1)) {i j : Nat} (hi : i < m) (hj : j < m) {ua ub t : ℝ}
    (hn : ua ≠ ub → ∀ k ≤ m, ua + t * (ub - ua) ≠ X k) (hc : X i ≤ ua + t * (ub - ua) ∧ ua + t * (ub - ua) ≤ X (i + 1)) :
    deriv (fun t : ℝ => ramp X j (ua + t * (ub - ua))) t = if j = i then (ub - ua) / (X (i + 1) - X i) else 0 := by
  by_cases hab : ua = ub
  · subst hab
    simp
  have hn := hn hab
  have lo : X i < ua + t * (ub - ua) := lt_of_le_of_ne hc.1 (hn i (by omega)).symm
  have hi' : ua + t * (ub - ua) < X (i + 1) := lt_of_le_of_ne hc.2 (hn (i + 1) (by omega))
  have hcont : Continuous fun t : ℝ => ua + t * (ub - ua) := by fun_prop
  have ev : ∀ᶠ s in nhds t, X i < ua + s * (ub - ua) ∧ ua + s * (ub - ua) < X (i + 1) :=
    (hcont.continuousAt.eventually_const_lt lo).and (hcont.continuousAt.eventually_lt_const hi')
  have hd := hX i hi
  have cell : ∀ s, X i < ua + s * (ub - ua) ∧ ua + s * (ub - ua) < X (i + 1) →
      ramp X j (ua + s * (ub - ua)) = if j < i then 1 else if j = i then (ua + s * (ub - ua) - X i) / (X (i + 1) - X i) else 0 := by
    intro s hs
    have hne : X (i + 1) - X i ≠ 0 := by linarith
    obtain ⟨r1, r2, r3⟩ := ramp_cell hX hi (t := (ua + s * (ub - ua) - X i) / (X (i + 1) - X i)) (div_nonneg (by linarith [hs.1]) (by linarith))
      ((div_le_one (by linarith)).2 (by linarith [hs.2]))
    rw [div_mul_cancel₀ _ hne, add_sub_cancel] at r1 r2 r3
    split_ifs with a b
    · exact r1 j a
    · rw [b]; exact r2
    · exact r3 j (by omega) hj
  have e := Filter.EventuallyEq.deriv_eq (ev.mono cell)
  rw [e]
  split_ifs with a b b
  · omega
  · simp
  · have : HasDerivAt (fun s : ℝ => (ua + s * (ub - ua) - X i) / (X (i + 1) - X i)) (1 * (ub - ua) / (X (i + 1) - X i)) t :=
      ((((hasDerivAt_id t).mul_const (ub - ua)).const_add ua).sub_const (X i)).div_const _
    rw [this.deriv, one_mul]
  · simp

/-- The sum over the columns, at a place in column `i`. -/
theorem ramp_sum {m : Nat} {X : Nat → ℝ} (hX : ∀ i, i < m → X i < X (i + 1)) {i : Nat} (hi : i < m) {ua ub t : ℝ}
    (hn : ua ≠ ub → ∀ k ≤ m, ua + t * (ub - ua) ≠ X k) (hc : X i ≤ ua + t * (ub - ua) ∧ ua + t * (ub - ua) ≤ X (i + 1)) (f : Nat → ℝ) :
    ∑ j ∈ Finset.range m, f j * deriv (fun t : ℝ => ramp X j (ua + t * (ub - ua))) t = f i * ((ub - ua) / (X (i + 1) - X i)) := by
  rw [Finset.sum_eq_single_of_mem i (Finset.mem_range.mpr hi)]
  · rw [ramp_deriv hX hi hi hn hc, if_pos rfl]
  · intro j hj hji
    rw [ramp_deriv hX hi (Finset.mem_range.mp hj) hn hc, if_neg hji, mul_zero]

theorem pl_at {m : Nat} {X : Nat → ℝ} (hX : ∀ i, i < m → X i < X (i + 1)) (f : Nat → ℝ) {i : Nat} (hi : i < m) {u : ℝ} (hc : X i ≤ u ∧ u ≤ X (i + 1)) :
    piecewiseLinear m X f u = (1 - (u - X i) / (X (i + 1) - X i)) * f i + (u - X i) / (X (i + 1) - X i) * f (i + 1) := by
  have hd := hX i hi
  have hne : X (i + 1) - X i ≠ 0 := by linarith
  have := pl_cell hX f hi (t := (u - X i) / (X (i + 1) - X i)) (div_nonneg (by linarith [hc.1]) (by linarith))
    ((div_le_one (by linarith)).2 (by linarith [hc.2]))
  rwa [div_mul_cancel₀ _ hne, add_sub_cancel] at this

/-- Almost nowhere is a segment that moves at a node. -/
theorem off_nodes (m : Nat) (X : Nat → ℝ) (ua ub : ℝ) : ∀ᵐ t : ℝ, ua ≠ ub → ∀ k ≤ m, ua + t * (ub - ua) ≠ X k := by
  by_cases h : ua = ub
  · exact Filter.Eventually.of_forall fun t h' => absurd h h'
  have hf : {t : ℝ | ∃ k ≤ m, ua + t * (ub - ua) = X k}.Finite := by
    have : {t : ℝ | ∃ k ≤ m, ua + t * (ub - ua) = X k} ⊆ ⋃ k ∈ Finset.range (m + 1), {(X k - ua) / (ub - ua)} := by
      rintro t ⟨k, hk, e⟩
      simp only [Set.mem_iUnion, Finset.mem_range, Set.mem_singleton_iff]
      refine ⟨k, by omega, ?_⟩
      rw [eq_div_iff (sub_ne_zero.mpr (Ne.symm h))]
      linarith
    exact (Set.Finite.biUnion (Finset.finite_toSet _) fun k _ => Set.finite_singleton _).subset this
  have := (hf.measure_zero volume)
  filter_upwards [compl_mem_ae_iff.mpr this] with t ht _ k hk e
  exact ht ⟨k, hk, e⟩

section
variable {n0 n1 : Nat} {X Y : Nat → ℝ} {c e0 e1 : P2} {xs ys : List ℝ}

theorem tensor_edgeField (h : TensorGrid n0 n1 X Y c e0 e1 xs ys) {i j : Nat} (hi : i < n0 - 1) (hj : j < n1 - 1) (x y : List ℝ) (u w r s : ℝ) :
    edgeField (gridQuad n1 xs ys i j) (edgeData n1 x y i j) (c + u • e0 + w • e1) (r • e0 + s • e1) =
      ((1 - (w - Y j) / (Y (j + 1) - Y j)) * x.getD (xEdge n1 i j) 0 + (w - Y j) / (Y (j + 1) - Y j) * x.getD (xEdge n1 i (j + 1)) 0) * (r / (X (i + 1) - X i)) +
      ((1 - (u - X i) / (X (i + 1) - X i)) * y.getD (yEdge n1 i j) 0 + (u - X i) / (X (i + 1) - X i) * y.getD (yEdge n1 (i + 1) j) 0) * (s / (Y (j + 1) - Y j)) := by
  have hξ : cellVector (gridQuad n1 xs ys i j) (c + u • e0 + w • e1 - gridQuad n1 xs ys i j 0) =
      ((u - X i) / (X (i + 1) - X i), (w - Y j) / (Y (j + 1) - Y j)) := by
    rw [(tensor_quad h hi hj).1, ← tensor_cellVector h hi hj]
    congr 1
    module
  unfold edgeField
  rw [hξ, tensor_cellVector h hi hj]
  simp only [edgeData]

/-- The numbers on the edges along the first axis of column `i`, interpolated along the second axis. -/
noncomputable def colData (n1 : Nat) (Y : Nat → ℝ) (x : List ℝ) (i : Nat) : ℝ → ℝ := piecewiseLinear (n1 - 1) Y fun j => x.getD (xEdge n1 i j) 0

/-- The numbers on the edges along the second axis of row `j`, interpolated along the first axis. -/
noncomputable def rowData (n0 n1 : Nat) (X : Nat → ℝ) (y : List ℝ) (j : Nat) : ℝ → ℝ := piecewiseLinear (n0 - 1) X fun i => y.getD (yEdge n1 i j) 0

/-- The sum of the integrals of the fields of the cells along a segment in the grid, column by column and row by row. -/
theorem sum_fields_along (hT : TensorGrid n0 n1 X Y c e0 e1 xs ys) (h0 : 2 ≤ n0) (h1 : 2 ≤ n1) (x y : List ℝ) {ua va ub vb : ℝ}
    (ina : (X 0 ≤ ua ∧ ua ≤ X (n0 - 1)) ∧ Y 0 ≤ va ∧ va ≤ Y (n1 - 1)) (inb : (X 0 ≤ ub ∧ ub ≤ X (n0 - 1)) ∧ Y 0 ≤ vb ∧ vb ≤ Y (n1 - 1))
    (hal : NotAlong n0 n1 X Y ua va ub vb) {a b : P2} (ea : a = c + ua • e0 + va • e1) (eb : b = c + ub • e0 + vb • e1) :
    (∃ i < n0 - 1, ∃ j < n1 - 1, (insideParams (gridQuad n1 xs ys i j) a b).Nontrivial) ∧
    ∑ i ∈ Finset.range (n0 - 1), ∑ j ∈ Finset.range (n1 - 1), fieldIntegral (gridQuad n1 xs ys i j) (edgeData n1 x y i j) a b =
      ∑ i ∈ Finset.range (n0 - 1), along (colData n1 Y x i) (ramp X i) ua va ub vb +
        ∑ j ∈ Finset.range (n1 - 1), along (rowData n0 n1 X y j) (ramp Y j) va ua vb ub := by
  have hX : ∀ i, i < n0 - 1 → X i < X (i + 1) := fun i hi => hT.incX i (by omega)
  have hY : ∀ j, j < n1 - 1 → Y j < Y (j + 1) := fun j hj => hT.incY j (by omega)
  have hcell := fun {k} (hk : k < (n0 - 1) * (n1 - 1)) => (FlowInterp.cell_split hk).2.2
  have hcov : ∀ p ∈ segment ℝ a b, ∃ m < (n0 - 1) * (n1 - 1), p ∈ quadRegion (gridQuad n1 xs ys (m / (n1 - 1)) (m % (n1 - 1))) := by
    rw [ea, eb]; exact tensor_cover hT h0 h1 ina.1 inb.1 ina.2 inb.2
  have honce := tensor_once hT hal
  rw [← ea, ← eb] at honce
  have hc : (⋃ k ∈ Finset.range ((n0 - 1) * (n1 - 1)), insideParams (gridQuad n1 xs ys (k / (n1 - 1)) (k % (n1 - 1))) a b) = Set.Icc 0 1 := by
    ext t
    simp only [Set.mem_iUnion, Finset.mem_range, exists_prop, insideParams, Set.mem_ofPred_eq, Set.mem_Icc]
    constructor
    · rintro ⟨k, -, h0, h1, -⟩; exact ⟨h0, h1⟩
    · rintro ⟨h0, h1⟩
      obtain ⟨k, hk, h⟩ := hcov (a + t • (b - a)) (mem_segment_iff.2 ⟨t, h0, h1, rfl⟩)
      exact ⟨k, hk, h0, h1, h⟩
  constructor
  · by_contra hno
    push Not at hno
    have hfin : (⋃ k ∈ Finset.range ((n0 - 1) * (n1 - 1)), insideParams (gridQuad n1 xs ys (k / (n1 - 1)) (k % (n1 - 1))) a b).Finite :=
      Set.Finite.biUnion (Finset.finite_toSet _) fun k hk =>
        (Set.not_nontrivial_iff.1 (by
          have := hcell (Finset.mem_range.1 hk)
          simpa using hno _ this.1 _ this.2)).finite
    rw [hc] at hfin
    exact (Set.Icc_infinite zero_lt_one) hfin
  have lc : ∀ i, ∃ L, Lip L (colData n1 Y x i) := fun i => pl_lip _ _ hY _
  have lr : ∀ j, ∃ L, Lip L (rowData n0 n1 X y j) := fun j => pl_lip _ _ hX _
  choose Lc lc using lc
  choose Lr lr using lr
  have ic : ∀ i ∈ Finset.range (n0 - 1), IntervalIntegrable (fun t => colData n1 Y x i (va + t * (vb - va)) * deriv (fun t : ℝ => ramp X i (ua + t * (ub - ua))) t) volume 0 1 :=
    fun i hi => (lc i).term (ramp_lip (hX i (Finset.mem_range.mp hi))) ua va ub vb
  have ir : ∀ j ∈ Finset.range (n1 - 1), IntervalIntegrable (fun t => rowData n0 n1 X y j (ua + t * (ub - ua)) * deriv (fun t : ℝ => ramp Y j (va + t * (vb - va))) t) volume 0 1 :=
    fun j hj => (lr j).term (ramp_lip (hY j (Finset.mem_range.mp hj))) va ua vb ub
  have isc := IntervalIntegrable.sum (Finset.range (n0 - 1)) ic
  have isr := IntervalIntegrable.sum (Finset.range (n1 - 1)) ir
  have hint := isc.add isr
  have e : ∑ i ∈ Finset.range (n0 - 1), along (colData n1 Y x i) (ramp X i) ua va ub vb +
        ∑ j ∈ Finset.range (n1 - 1), along (rowData n0 n1 X y j) (ramp Y j) va ua vb ub =
      ∫ t in (0 : ℝ)..1, (∑ i ∈ Finset.range (n0 - 1), fun t => colData n1 Y x i (va + t * (vb - va)) * deriv (fun t : ℝ => ramp X i (ua + t * (ub - ua))) t) t +
        (∑ j ∈ Finset.range (n1 - 1), fun t => rowData n0 n1 X y j (ua + t * (ub - ua)) * deriv (fun t : ℝ => ramp Y j (va + t * (vb - va))) t) t := by
    rw [intervalIntegral.integral_add isc isr]
    simp only [Finset.sum_apply]
    rw [intervalIntegral.integral_finsetSum ic, intervalIntegral.integral_finsetSum ir]
    rfl
  rw [e, intervalIntegral.integral_of_le zero_le_one, ← integral_Icc_eq_integral_Ioc,
    integral_pieces _ _ (fun k => inside_compact _ a b) honce hc _
      (by have := hint.1; rwa [← integrableOn_Icc_iff_integrableOn_Ioc] at this),
    ← sum_cells n0 n1 (by omega) (fun i j => fieldIntegral (gridQuad n1 xs ys i j) (edgeData n1 x y i j) a b)]
  refine Finset.sum_congr rfl fun k hk => ?_
  obtain ⟨hi, hj⟩ := hcell (Finset.mem_range.1 hk)
  unfold fieldIntegral
  refine setIntegral_congr_ae (inside_compact _ a b).isClosed.measurableSet ?_
  filter_upwards [off_nodes (n0 - 1) X ua ub, off_nodes (n1 - 1) Y va vb] with t tX tY ht
  have ep : a + t • (b - a) = c + (ua + t * (ub - ua)) • e0 + (va + t * (vb - va)) • e1 := by
    rw [ea, eb]; module
  have hba : b - a = (ub - ua) • e0 + (vb - va) • e1 := by rw [ea, eb]; module
  have hp := ht.2.2
  rw [ep] at hp
  have hp' := (tensor_region hT hi hj).1 hp
  rw [ep, hba, tensor_edgeField hT hi hj]
  simp only [Finset.sum_apply]
  rw [ramp_sum hX hi tX hp'.1 fun i => colData n1 Y x i (va + t * (vb - va)), ramp_sum hY hj tY hp'.2 fun j => rowData n0 n1 X y j (ua + t * (ub - ua)),
    colData, rowData, pl_at hY _ hj hp'.2, pl_at hX _ hi hp'.1]

/-- **C80**, in real numbers, for any edge data on a sheared product grid: there is a bound `L`, which depends on the grid and the data only, such that if
two lines have their nodes no further than `δ` from each other (in the coordinates of the grid), the flows of all segments that are good in both
differ by no more than `L * δ`.  (Without the conditions this is refuted by `C80_small_move_refuted`.) -/
theorem C80_data_partial (g : Gels ℝ) (hg : GelsContract g) (srt : List ℝ → List ℝ)
    (hsrt : ∀ l, SortsTo l (srt l)) (n0 n1 : Nat) (h0 : 2 ≤ n0) (h1 : 2 ≤ n1) (hf : n0 * n1 ≤ 1073741824) (xs ys : List ℝ)
    (hx : n0 * n1 ≤ xs.length) (hy : n0 * n1 ≤ ys.length) (X Y : Nat → ℝ) (c e0 e1 : ℝ × ℝ) (hT : TensorGrid n0 n1 X Y c e0 e1 xs ys)
    (x y : List ℝ) (hxl : (n0 - 1) * n1 ≤ x.length) (hyl : n0 * (n1 - 1) ≤ y.length) :
    ∃ L : ℝ, 0 ≤ L ∧ ∀ (pert pert' : Nat → Nat → Nat → ℝ) (n : Nat) (us vs us' vs' : List ℝ), 1 ≤ n → n ≤ us.length → n ≤ vs.length →
      n ≤ us'.length → n ≤ vs'.length → ∀ (U V U' V' : Nat → ℝ),
      (∀ k < n, movedNode pert n us vs k = c + U k • e0 + V k • e1 ∧ movedNode pert' n us' vs' k = c + U' k • e0 + V' k • e1) →
      ∀ δ : ℝ, (∀ k < n, |U k - U' k| ≤ δ ∧ |V k - V' k| ≤ δ) → ∀ d : List ℝ, n - 1 ≤ d.length →
        ∃ d1 d2, flowWith pert g srt [] n0 n1 xs ys n us vs 1 x y d = .ok d1 ∧
          flowWith pert' g srt [] n0 n1 xs ys n us' vs' 1 x y d = .ok d2 ∧
          ∀ k < n - 1,
            GoodSegment n0 n1 X Y xs ys (movedNode pert n us vs k) (movedNode pert n us vs (k + 1)) (U k) (V k) (U (k + 1)) (V (k + 1)) →
            GoodSegment n0 n1 X Y xs ys (movedNode pert' n us' vs' k) (movedNode pert' n us' vs' (k + 1)) (U' k) (V' k) (U' (k + 1)) (V' (k + 1)) →
            ∃ f1 f2, d1[k]? = some f1 ∧ d2[k]? = some f2 ∧ |f1 - f2| ≤ L * δ := by
  have hX : ∀ i, i < n0 - 1 → X i < X (i + 1) := fun i hi => hT.incX i (by omega)
  have hY : ∀ j, j < n1 - 1 → Y j < Y (j + 1) := fun j hj => hT.incY j (by omega)
  have hXr : 0 ≤ X (n0 - 1) - X 0 := sub_nonneg.mpr (inc_le hX (Nat.zero_le _) le_rfl)
  have hYr : 0 ≤ Y (n1 - 1) - Y 0 := sub_nonneg.mpr (inc_le hY (Nat.zero_le _) le_rfl)
  choose Lc lc using fun i => pl_lip (n1 - 1) Y hY fun j => x.getD (xEdge n1 i j) 0
  choose Lr lr using fun j => pl_lip (n0 - 1) X hX fun i => y.getD (yEdge n1 i j) 0
  choose Mc mc using fun i => pl_bound (n1 - 1) Y fun j => x.getD (xEdge n1 i j) 0
  choose Mr mr using fun j => pl_bound (n0 - 1) X fun i => y.getD (yEdge n1 i j) 0
  set W := X (n0 - 1) - X 0 + (Y (n1 - 1) - Y 0) with hW
  have pc : ∀ i ∈ Finset.range (n0 - 1), 0 ≤ (Lc i * W + 2 * Mc i) * (1 / (X (i + 1) - X i)) := by
    intro i hi
    have := (lc i).1
    have := (abs_nonneg _).trans (mc i 0)
    have := (ramp_lip (hX i (Finset.mem_range.mp hi))).1
    positivity
  have pr : ∀ j ∈ Finset.range (n1 - 1), 0 ≤ (Lr j * W + 2 * Mr j) * (1 / (Y (j + 1) - Y j)) := by
    intro j hj
    have := (lr j).1
    have := (abs_nonneg _).trans (mr j 0)
    have := (ramp_lip (hY j (Finset.mem_range.mp hj))).1
    positivity
  refine ⟨∑ i ∈ Finset.range (n0 - 1), (Lc i * W + 2 * Mc i) * (1 / (X (i + 1) - X i)) +
    ∑ j ∈ Finset.range (n1 - 1), (Lr j * W + 2 * Mr j) * (1 / (Y (j + 1) - Y j)), add_nonneg (Finset.sum_nonneg pc) (Finset.sum_nonneg pr), ?_⟩
  intro pert pert' n us vs us' vs' hn hu hv hu' hv' U V U' V' hUV δ hδ d hd
  have hpar := fun i hi j hj => tensor_parallelogram (i := i) (j := j) hT hi hj
  obtain ⟨d1, r1, s1⟩ := C79_integral_partial pert g hg srt hsrt n0 n1 h0 h1 hf xs ys hx hy n hn us vs hu hv hpar x y hxl hyl d hd
  obtain ⟨d2, r2, s2⟩ := C79_integral_partial pert' g hg srt hsrt n0 n1 h0 h1 hf xs ys hx hy n hn us' vs' hu' hv' hpar x y hxl hyl d hd
  refine ⟨d1, d2, r1, r2, fun k hk g1 g2 => ?_⟩
  obtain ⟨met1, sum1⟩ := sum_fields_along hT h0 h1 x y g1.ina g1.inb g1.along (hUV k (by omega)).1 (hUV (k + 1) (by omega)).1
  obtain ⟨met2, sum2⟩ := sum_fields_along hT h0 h1 x y g2.ina g2.inb g2.along (hUV k (by omega)).2 (hUV (k + 1) (by omega)).2
  refine ⟨_, _, s1 k hk _ _ rfl rfl met1 g1.clear, s2 k hk _ _ rfl rfl met2 g2.clear, ?_⟩
  rw [sum1, sum2, add_sub_add_comm, ← Finset.sum_sub_distrib, ← Finset.sum_sub_distrib, add_mul, Finset.sum_mul, Finset.sum_mul]
  have bU := hδ k (by omega)
  have bU' := hδ (k + 1) (by omega)
  have hδ0 : 0 ≤ δ := (abs_nonneg _).trans bU.1
  have w1 : |U (k + 1) - U k| ≤ X (n0 - 1) - X 0 := abs_le.mpr ⟨by linarith [g1.ina.1.2, g1.inb.1.1], by linarith [g1.ina.1.1, g1.inb.1.2]⟩
  have w2 : |V' (k + 1) - V' k| ≤ Y (n1 - 1) - Y 0 := abs_le.mpr ⟨by linarith [g2.ina.2.2, g2.inb.2.1], by linarith [g2.ina.2.1, g2.inb.2.2]⟩
  have w3 : |V (k + 1) - V k| ≤ Y (n1 - 1) - Y 0 := abs_le.mpr ⟨by linarith [g1.ina.2.2, g1.inb.2.1], by linarith [g1.ina.2.1, g1.inb.2.2]⟩
  have w4 : |U' (k + 1) - U' k| ≤ X (n0 - 1) - X 0 := abs_le.mpr ⟨by linarith [g2.ina.1.2, g2.inb.1.1], by linarith [g2.ina.1.1, g2.inb.1.2]⟩
  refine (abs_add_le _ _).trans (add_le_add ((Finset.abs_sum_le_sum_abs _ _).trans (Finset.sum_le_sum fun i hi => ?_))
    ((Finset.abs_sum_le_sum_abs _ _).trans (Finset.sum_le_sum fun j hj => ?_)))
  · have hr := ramp_lip (hX i (Finset.mem_range.mp hi))
    refine (along_move (lc i) (mc i) hr bU.1 bU'.1 bU.2 bU'.2).trans (mul_le_mul_of_nonneg_right (mul_le_mul_of_nonneg_right ?_ hr.1) hδ0)
    have := mul_le_mul_of_nonneg_left (add_le_add w1 w2) (lc i).1
    linarith
  · have hr := ramp_lip (hY j (Finset.mem_range.mp hj))
    refine (along_move (lr j) (mr j) hr bU.2 bU'.2 bU.1 bU'.1).trans (mul_le_mul_of_nonneg_right (mul_le_mul_of_nonneg_right ?_ hr.1) hδ0)
    have := mul_le_mul_of_nonneg_left (add_le_add w3 w4) (lr j).1
    rw [add_comm (Y (n1 - 1) - Y 0)] at this
    linarith
end

/-- A second good segment of the unit grid. -/
theorem ex_good' : GoodSegment 3 3 (fun i => (i : ℝ)) (fun j => (j : ℝ)) [0, 0, 0, 1, 1, 1, 2, 2, 2] [0, 1, 2, 0, 1, 2, 0, 1, 2] (0, 1) (2, 2) 0 1 2 2 := by
  refine ⟨by norm_num, by norm_num, ⟨?_, ?_⟩, ?_⟩
  · rintro i h0 h1 ⟨h2, h3⟩
    linarith
  · rintro i h0 h1 ⟨h2, h3⟩
    linarith
  · intro i hi j hj
    have hi : i < 2 := hi
    have hj : j < 2 := hj
    have hc : ZConvex (zcell i j) ∧ ZSmall (zcell i j) := by
      interval_cases i <;> interval_cases j <;> exact ⟨by decide, by decide⟩
    rw [square_cell i hi j hj]
    simpa using clearLine_int hc.1 hc.2 (0, 1) (2, 2) (by norm_num) (by norm_num) (Or.inr (by decide))

/-- Any data on the edges of the grid of 3 times 3 integer nodes; the segments from (0, 0) to (2, 1) and from (0, 1) to (2, 2) are at a distance of 1. -/
example (g : Gels ℝ) (hg : GelsContract g) (srt : List ℝ → List ℝ) (hsrt : ∀ l, SortsTo l (srt l)) (x y : List ℝ) (hxl : 6 ≤ x.length) (hyl : 6 ≤ y.length) :
    ∃ L : ℝ, ∃ d1 d2, flowWith noPert g srt [] 3 3 [0, 0, 0, 1, 1, 1, 2, 2, 2] [0, 1, 2, 0, 1, 2, 0, 1, 2] 2 [0, 2] [0, 1] 1 x y [7] = .ok d1 ∧
      flowWith noPert g srt [] 3 3 [0, 0, 0, 1, 1, 1, 2, 2, 2] [0, 1, 2, 0, 1, 2, 0, 1, 2] 2 [0, 2] [1, 2] 1 x y [7] = .ok d2 ∧
      ∃ f1 f2, d1[0]? = some f1 ∧ d2[0]? = some f2 ∧ |f1 - f2| ≤ L * 1 := by
  obtain ⟨L, -, h⟩ := C80_data_partial g hg srt hsrt 3 3 (by norm_num) (by norm_num) (by norm_num) _ _ (by simp) (by simp) _ _ _ _ _ square_tensor x y hxl hyl
  obtain ⟨d1, d2, r1, r2, s⟩ := h noPert noPert 2 [0, 2] [0, 1] [0, 2] [1, 2] (by norm_num) (by simp) (by simp) (by simp) (by simp)
    (fun k => 2 * k) (fun k => k) (fun k => 2 * k) (fun k => k + 1)
    (by intro k hk; interval_cases k <;> simp [movedNode, noPert] <;> norm_num) 1 (by intro k hk; simp) [7] (by simp)
  refine ⟨L, d1, d2, r1, r2, s 0 (by norm_num) ?_ ?_⟩
  · simpa [movedNode, noPert] using ex_good
  · have := ex_good'
    simp [movedNode, noPert]
    norm_num
    exact this

end Sg.Props
