import Verif.Proof.FlowIntegral
import Verif.Props.FlowPotential
/-
Properties C78 and C79: which segments are written and what is written, for any edge data.  `g` is the linear algebra library,
`srt` is `std::sort` and `pert` the perturbation of the nodes of the line.
-/
namespace Sg.Props
open Sg Sg.FlowInterp Sg.QuadIntersect Sg.QuadFlows Sg.LinearSolve Sg.Triangulate Sg.FindPoint Sg.QuadLine Sg.Spec

theorem cellEdges_data {n0 n1 : Nat} (x y : List ℝ) {k : Nat} (hk : k < (n0 - 1) * (n1 - 1)) :
    cellEdges n0 n1 x y k = edgeData n1 x y (k / (n1 - 1)) (k % (n1 - 1)) := by
  obtain ⟨h1, h2, h3, h4⟩ := cell_split hk
  funext e
  unfold cellEdges
  rw [Nat.mod_eq_of_lt h3]
  fin_cases e <;> rfl

theorem sum_cells (n0 n1 : Nat) (h1 : 0 < n1 - 1) (f : Nat → Nat → ℝ) :
    ∑ k ∈ Finset.range ((n0 - 1) * (n1 - 1)), f (k / (n1 - 1)) (k % (n1 - 1)) =
      ∑ i ∈ Finset.range (n0 - 1), ∑ j ∈ Finset.range (n1 - 1), f i j := by
  induction n0 - 1 with
  | zero => simp
  | succ m ih =>
    rw [Finset.sum_range_succ, ← ih, Nat.succ_mul, Finset.sum_range_add]
    congr 1
    refine Finset.sum_congr rfl fun j hj => ?_
    have hj := Finset.mem_range.mp hj
    have e1 : (m * (n1 - 1) + j) / (n1 - 1) = m := by
      rw [Nat.add_comm, Nat.add_mul_div_right _ _ h1, Nat.div_eq_of_lt hj, Nat.zero_add]
    have e2 : (m * (n1 - 1) + j) % (n1 - 1) = j := by
      rw [Nat.add_comm, Nat.add_mul_mod_self_right, Nat.mod_eq_of_lt hj]
    rw [e1, e2]

/-- **C78**, in real numbers, convex cells: the flow of every segment (as stored) that has more than a point in some cell is
written, and what is written does not depend on what was in the output array; nothing is written outside the segments.
(Without the condition on the segment this is refuted by `C78_outside_refuted`.) -/
theorem C78_inside_partial (pert : Nat → Nat → Nat → ℝ) (g : Gels ℝ) (hg : GelsContract g) (srt : List ℝ → List ℝ)
    (hsrt : ∀ l, SortsTo l (srt l)) (n0 n1 : Nat) (h0 : 2 ≤ n0) (h1 : 2 ≤ n1) (hf : n0 * n1 ≤ 1073741824) (xs ys : List ℝ)
    (hx : n0 * n1 ≤ xs.length) (hy : n0 * n1 ≤ ys.length) (n : Nat) (hn : 1 ≤ n) (us vs : List ℝ) (hu : n ≤ us.length)
    (hv : n ≤ vs.length) (hcv : ∀ i < n0 - 1, ∀ j < n1 - 1, ConvexQuad (gridQuad n1 xs ys i j)) (x y : List ℝ)
    (hxl : (n0 - 1) * n1 ≤ x.length) (hyl : n0 * (n1 - 1) ≤ y.length) :
    ∃ flow : Nat → ℝ, ∀ d : List ℝ, n - 1 ≤ d.length →
      ∃ d', flowWith pert g srt [] n0 n1 xs ys n us vs 1 x y d = .ok d' ∧ d'.length = d.length ∧
        (∀ k, n - 1 ≤ k → d'[k]? = d[k]?) ∧
        ∀ k < n - 1, (∃ i < n0 - 1, ∃ j < n1 - 1,
          (insideParams (gridQuad n1 xs ys i j) (movedNode pert n us vs k) (movedNode pert n us vs (k + 1))).Nontrivial) →
          d'[k]? = some (flow k) := by
  obtain ⟨S, hS, hrun⟩ := flow_data pert g hg.sizes srt n0 n1 h0 h1 hf xs ys hx hy n hn us vs hu hv
  refine ⟨fun i => ∑ j ∈ Finset.range ((n0 - 1) * (n1 - 1)), ((S i j).map fun c => flowDot c.2 (cellEdges n0 n1 x y j)).sum,
    fun d hd => ?_⟩
  obtain ⟨d', e, hl, hb, hd'⟩ := hrun x y hxl hyl d hd
  refine ⟨d', e, hl, hb, fun k hk ⟨i, hi, j, hj, s, hs, t, ht, hst⟩ => ?_⟩
  have e1 : (i * (n1 - 1) + j) / (n1 - 1) = i := by
    rw [Nat.add_comm, Nat.add_mul_div_right _ _ (by omega), Nat.div_eq_of_lt hj, Nat.zero_add]
  have e2 : (i * (n1 - 1) + j) % (n1 - 1) = j := by
    rw [Nat.add_comm, Nat.add_mul_mod_self_right, Nat.mod_eq_of_lt hj]
  have hc := hS k hk (i * (n1 - 1) + j) (cell_lt hi hj)
  rw [e1, e2] at hc
  have hne := cell_stored hg hsrt (hcv i hi j hj) hc hs ht hst
  rw [hd' k hk, if_neg]
  intro h
  rw [List.flatMap_eq_nil_iff] at h
  exact hne (h _ (List.mem_range.mpr (cell_lt hi hj)))

/-- **C78**, the converse, in real numbers, convex cells: a segment (as stored) without a point in any cell, for which no decision
is closer than the tolerance of the intersector, keeps what was in the output array. -/
theorem C78_kept_partial (pert : Nat → Nat → Nat → ℝ) (g : Gels ℝ) (hg : GelsContract g) (srt : List ℝ → List ℝ)
    (hsrt : ∀ l, SortsTo l (srt l)) (n0 n1 : Nat) (h0 : 2 ≤ n0) (h1 : 2 ≤ n1) (hf : n0 * n1 ≤ 1073741824) (xs ys : List ℝ)
    (hx : n0 * n1 ≤ xs.length) (hy : n0 * n1 ≤ ys.length) (n : Nat) (hn : 1 ≤ n) (us vs : List ℝ) (hu : n ≤ us.length)
    (hv : n ≤ vs.length) (hcv : ∀ i < n0 - 1, ∀ j < n1 - 1, ConvexQuad (gridQuad n1 xs ys i j)) (x y : List ℝ)
    (hxl : (n0 - 1) * n1 ≤ x.length) (hyl : n0 * (n1 - 1) ≤ y.length) (d : List ℝ) (hd : n - 1 ≤ d.length) :
    ∃ d', flowWith pert g srt [] n0 n1 xs ys n us vs 1 x y d = .ok d' ∧
      ∀ k < n - 1, ∀ a b, a = movedNode pert n us vs k → b = movedNode pert n us vs (k + 1) →
        (∀ i < n0 - 1, ∀ j < n1 - 1, ClearLine (gridQuad n1 xs ys i j) a b ∧ insideParams (gridQuad n1 xs ys i j) a b = ∅) →
        d'[k]? = d[k]? := by
  obtain ⟨S, hS, hrun⟩ := flow_data pert g hg.sizes srt n0 n1 h0 h1 hf xs ys hx hy n hn us vs hu hv
  obtain ⟨d', e, hl, hb, hd'⟩ := hrun x y hxl hyl d hd
  refine ⟨d', e, fun k hk a b ea eb hout => ?_⟩
  subst ea eb
  rw [hd' k hk, if_pos]
  rw [List.flatMap_eq_nil_iff]
  intro c hc
  have hc := List.mem_range.mp hc
  obtain ⟨-, -, h3, h4⟩ := cell_split hc
  by_contra hne
  have := stored_inside hg hsrt (hcv _ h3 _ h4) (hout _ h3 _ h4).1 (hS k hk c hc) hne
  rw [(hout _ h3 _ h4).2] at this
  exact Set.not_nonempty_empty this

/-- **C79**, in real numbers, cells that are parallelograms: the flow of a segment (as stored) that has more than a point in some
cell, and for which no decision is closer than the tolerance of the intersector, is the sum over the cells of the integrals,
along its part inside, of the field given by the numbers on the edges of the cell.  So what is in no cell counts for nothing,
and what is inside one cell only counts once. -/
theorem C79_integral_partial (pert : Nat → Nat → Nat → ℝ) (g : Gels ℝ) (hg : GelsContract g) (srt : List ℝ → List ℝ)
    (hsrt : ∀ l, SortsTo l (srt l)) (n0 n1 : Nat) (h0 : 2 ≤ n0) (h1 : 2 ≤ n1) (hf : n0 * n1 ≤ 1073741824) (xs ys : List ℝ)
    (hx : n0 * n1 ≤ xs.length) (hy : n0 * n1 ≤ ys.length) (n : Nat) (hn : 1 ≤ n) (us vs : List ℝ) (hu : n ≤ us.length)
    (hv : n ≤ vs.length) (hpar : ∀ i < n0 - 1, ∀ j < n1 - 1, Parallelogram (gridQuad n1 xs ys i j)) (x y : List ℝ)
    (hxl : (n0 - 1) * n1 ≤ x.length) (hyl : n0 * (n1 - 1) ≤ y.length) (d : List ℝ) (hd : n - 1 ≤ d.length) :
    ∃ d', flowWith pert g srt [] n0 n1 xs ys n us vs 1 x y d = .ok d' ∧
      ∀ k < n - 1, ∀ a b, a = movedNode pert n us vs k → b = movedNode pert n us vs (k + 1) →
        (∃ i < n0 - 1, ∃ j < n1 - 1, (insideParams (gridQuad n1 xs ys i j) a b).Nontrivial) →
        (∀ i < n0 - 1, ∀ j < n1 - 1, ClearLine (gridQuad n1 xs ys i j) a b) →
        d'[k]? = some (∑ i ∈ Finset.range (n0 - 1), ∑ j ∈ Finset.range (n1 - 1),
          fieldIntegral (gridQuad n1 xs ys i j) (edgeData n1 x y i j) a b) := by
  obtain ⟨S, hS, hrun⟩ := flow_data pert g hg.sizes srt n0 n1 h0 h1 hf xs ys hx hy n hn us vs hu hv
  obtain ⟨d', e, hl, hb, hd'⟩ := hrun x y hxl hyl d hd
  refine ⟨d', e, fun k hk a b ea eb ⟨i, hi, j, hj, s, hs, t, ht, hst⟩ hclear => ?_⟩
  subst ea eb
  have e1 : (i * (n1 - 1) + j) / (n1 - 1) = i := by
    rw [Nat.add_comm, Nat.add_mul_div_right _ _ (by omega), Nat.div_eq_of_lt hj, Nat.zero_add]
  have e2 : (i * (n1 - 1) + j) % (n1 - 1) = j := by
    rw [Nat.add_comm, Nat.add_mul_mod_self_right, Nat.mod_eq_of_lt hj]
  have hc := hS k hk (i * (n1 - 1) + j) (cell_lt hi hj)
  rw [e1, e2] at hc
  have hne := cell_stored hg hsrt (convexQuad_of (hpar i hi j hj)) hc hs ht hst
  rw [hd' k hk, if_neg]
  · congr 1
    rw [← sum_cells n0 n1 (by omega)]
    refine Finset.sum_congr rfl fun c hc => ?_
    have hc := Finset.mem_range.mp hc
    obtain ⟨-, -, h3, h4⟩ := cell_split hc
    rw [cellEdges_data x y hc]
    exact cell_integral hg hsrt (hpar _ h3 _ h4) (hclear _ h3 _ h4) (hS k hk c hc) _
  · intro h
    rw [List.flatMap_eq_nil_iff] at h
    exact hne (h _ (List.mem_range.mpr (cell_lt hi hj)))

/-! ### C80 for potentials -/

theorem ramp_lipschitz {X : Nat → ℝ} {i : Nat} (h : X i < X (i + 1)) (u u' : ℝ) :
    |ramp X i u - ramp X i u'| ≤ 1 / (X (i + 1) - X i) * |u - u'| := by
  have hp : 0 < X (i + 1) - X i := by linarith
  have e : 1 / (X (i + 1) - X i) * |u - u'| = |(u - X i) / (X (i + 1) - X i) - (u' - X i) / (X (i + 1) - X i)| := by
    rw [← sub_div, abs_div, abs_of_pos hp, sub_sub_sub_cancel_right]
    ring
  rw [e]
  unfold ramp
  generalize (u - X i) / (X (i + 1) - X i) = s
  generalize (u' - X i) / (X (i + 1) - X i) = t
  have h1 := abs_max_sub_max_le_abs (min 1 s) (min 1 t) 0
  have h2 := abs_min_sub_min_le_max 1 s 1 t
  rw [sub_self, abs_zero, max_eq_right (abs_nonneg _)] at h2
  rw [max_comm 0, max_comm 0]
  exact h1.trans h2

theorem ramp_bounds (X : Nat → ℝ) (i : Nat) (u : ℝ) : |ramp X i u| ≤ 1 := by
  unfold ramp
  rw [abs_of_nonneg (le_max_left _ _)]
  exact max_le zero_le_one (min_le_left _ _)

theorem pl_lipschitz (m : Nat) (X : Nat → ℝ) (hX : ∀ i < m, X i < X (i + 1)) (f : Nat → ℝ) :
    ∃ L, 0 ≤ L ∧ ∀ u u', |piecewiseLinear m X f u - piecewiseLinear m X f u'| ≤ L * |u - u'| := by
  refine ⟨∑ i ∈ Finset.range m, |f (i + 1) - f i| * (1 / (X (i + 1) - X i)), ?_, fun u u' => ?_⟩
  · refine Finset.sum_nonneg fun i hi => ?_
    have := hX i (Finset.mem_range.mp hi)
    exact mul_nonneg (abs_nonneg _) (by apply div_nonneg <;> linarith)
  · unfold piecewiseLinear
    rw [add_sub_add_left_eq_sub, ← Finset.sum_sub_distrib, Finset.sum_mul]
    refine (Finset.abs_sum_le_sum_abs _ _).trans (Finset.sum_le_sum fun i hi => ?_)
    rw [← mul_sub, abs_mul, mul_assoc]
    exact mul_le_mul_of_nonneg_left (ramp_lipschitz (hX i (Finset.mem_range.mp hi)) u u') (abs_nonneg _)

theorem tensor_lipschitz {n0 n1 : Nat} {X Y : Nat → ℝ} (hX : ∀ i, i + 1 < n0 → X i < X (i + 1)) (hY : ∀ j, j + 1 < n1 → Y j < Y (j + 1))
    (phi : Nat → Nat → ℝ) :
    ∃ L, 0 ≤ L ∧ ∀ u v u' v', |tensorInterp n0 n1 X Y phi u v - tensorInterp n0 n1 X Y phi u' v'| ≤ L * (|u - u'| + |v - v'|) := by
  have h := fun j => pl_lipschitz (n0 - 1) X (fun i hi => hX i (by omega)) (fun i => phi i j)
  choose L hL hl using h
  have hb : ∀ j, ∃ B, 0 ≤ B ∧ ∀ u, |piecewiseLinear (n0 - 1) X (fun i => phi i (j + 1)) u - piecewiseLinear (n0 - 1) X (fun i => phi i j) u| ≤ B := by
    intro j
    refine ⟨|phi 0 (j + 1)| + |phi 0 j| + (∑ i ∈ Finset.range (n0 - 1), |phi (i + 1) (j + 1) - phi i (j + 1)| +
      ∑ i ∈ Finset.range (n0 - 1), |phi (i + 1) j - phi i j|), by positivity, fun u => ?_⟩
    have hs : ∀ f : Nat → ℝ, |∑ i ∈ Finset.range (n0 - 1), (f (i + 1) - f i) * ramp X i u| ≤ ∑ i ∈ Finset.range (n0 - 1), |f (i + 1) - f i| := by
      intro f
      refine (Finset.abs_sum_le_sum_abs _ _).trans (Finset.sum_le_sum fun i _ => ?_)
      rw [abs_mul]
      exact mul_le_of_le_one_right (abs_nonneg _) (ramp_bounds X i u)
    have h1 := hs fun i => phi i (j + 1)
    have h2 := hs fun i => phi i j
    unfold piecewiseLinear
    have h3 := abs_sub (phi 0 (j + 1) + ∑ i ∈ Finset.range (n0 - 1), (phi (i + 1) (j + 1) - phi i (j + 1)) * ramp X i u)
      (phi 0 j + ∑ i ∈ Finset.range (n0 - 1), (phi (i + 1) j - phi i j) * ramp X i u)
    have h4 := abs_add_le (phi 0 (j + 1)) (∑ i ∈ Finset.range (n0 - 1), (phi (i + 1) (j + 1) - phi i (j + 1)) * ramp X i u)
    have h5 := abs_add_le (phi 0 j) (∑ i ∈ Finset.range (n0 - 1), (phi (i + 1) j - phi i j) * ramp X i u)
    linarith
  choose B hB hb using hb
  refine ⟨L 0 + ∑ j ∈ Finset.range (n1 - 1), (L (j + 1) + L j + B j * (1 / (Y (j + 1) - Y j))), ?_, fun u v u' v' => ?_⟩
  · refine add_nonneg (hL 0) (Finset.sum_nonneg fun j hj => ?_)
    have := hY j (by have := Finset.mem_range.mp hj; omega)
    exact add_nonneg (add_nonneg (hL _) (hL _)) (mul_nonneg (hB j) (by apply div_nonneg <;> linarith))
  · have hterm : ∀ j ∈ Finset.range (n1 - 1),
        |(piecewiseLinear (n0 - 1) X (fun i => phi i (j + 1)) u - piecewiseLinear (n0 - 1) X (fun i => phi i j) u) * ramp Y j v -
          (piecewiseLinear (n0 - 1) X (fun i => phi i (j + 1)) u' - piecewiseLinear (n0 - 1) X (fun i => phi i j) u') * ramp Y j v'| ≤
        (L (j + 1) + L j + B j * (1 / (Y (j + 1) - Y j))) * (|u - u'| + |v - v'|) := by
      intro j hj
      have hYj := hY j (by have := Finset.mem_range.mp hj; omega)
      have hr := ramp_lipschitz hYj v v'
      have hr1 := ramp_bounds Y j v
      have h1 := hl (j + 1) u u'
      have h2 := hl j u u'
      have h3 := hb j u'
      generalize piecewiseLinear (n0 - 1) X (fun i => phi i (j + 1)) u = p at *
      generalize piecewiseLinear (n0 - 1) X (fun i => phi i j) u = q at *
      generalize piecewiseLinear (n0 - 1) X (fun i => phi i (j + 1)) u' = p' at *
      generalize piecewiseLinear (n0 - 1) X (fun i => phi i j) u' = q' at *
      generalize ramp Y j v = r at *
      generalize ramp Y j v' = r' at *
      have e : (p - q) * r - (p' - q') * r' = ((p - p') - (q - q')) * r + (p' - q') * (r - r') := by ring
      have hc : 0 ≤ 1 / (Y (j + 1) - Y j) := by apply div_nonneg <;> linarith
      have a1 : |((p - p') - (q - q')) * r| ≤ (L (j + 1) + L j) * |u - u'| := by
        rw [abs_mul]
        refine (mul_le_of_le_one_right (abs_nonneg _) hr1).trans ((abs_sub _ _).trans ?_)
        linarith
      have a2 : |(p' - q') * (r - r')| ≤ B j * (1 / (Y (j + 1) - Y j)) * |v - v'| := by
        rw [abs_mul, mul_assoc]
        exact mul_le_mul h3 hr (abs_nonneg _) (hB j)
      rw [e]
      refine (abs_add_le _ _).trans ((add_le_add a1 a2).trans ?_)
      have t1 := mul_nonneg (add_nonneg (hL (j + 1)) (hL j)) (abs_nonneg (v - v'))
      have t2 := mul_nonneg (mul_nonneg (hB j) hc) (abs_nonneg (u - u'))
      linarith
    have hs := (Finset.abs_sum_le_sum_abs _ _).trans (Finset.sum_le_sum hterm)
    rw [← Finset.sum_mul, Finset.sum_sub_distrib] at hs
    have h0 := hl 0 u u'
    have t0 := mul_nonneg (hL 0) (abs_nonneg (v - v'))
    unfold tensorInterp
    have pe : ∀ (f : Nat → ℝ) (w : ℝ), piecewiseLinear (n1 - 1) Y f w = f 0 + ∑ j ∈ Finset.range (n1 - 1), (f (j + 1) - f j) * ramp Y j w :=
      fun _ _ => rfl
    rw [pe, pe]
    have := abs_add_le (piecewiseLinear (n0 - 1) X (fun i => phi i 0) u - piecewiseLinear (n0 - 1) X (fun i => phi i 0) u')
      (∑ j ∈ Finset.range (n1 - 1), (piecewiseLinear (n0 - 1) X (fun i => phi i (j + 1)) u - piecewiseLinear (n0 - 1) X (fun i => phi i j) u) * ramp Y j v -
        ∑ j ∈ Finset.range (n1 - 1), (piecewiseLinear (n0 - 1) X (fun i => phi i (j + 1)) u' - piecewiseLinear (n0 - 1) X (fun i => phi i j) u') * ramp Y j v')
    rw [add_sub_add_comm]
    linarith

/-- The part of a segment that `C70_tensor` needs: its ends, with coordinates `U` and `V` along the axes of the grid, are in the grid,
it does not run along a grid line inside the grid and no decision is closer than the tolerance of the intersector. -/
structure GoodSegment (n0 n1 : Nat) (X Y : Nat → ℝ) (xs ys : List ℝ) (a b : ℝ × ℝ) (ua va ub vb : ℝ) : Prop where
  ina : (X 0 ≤ ua ∧ ua ≤ X (n0 - 1)) ∧ Y 0 ≤ va ∧ va ≤ Y (n1 - 1)
  inb : (X 0 ≤ ub ∧ ub ≤ X (n0 - 1)) ∧ Y 0 ≤ vb ∧ vb ≤ Y (n1 - 1)
  along : NotAlong n0 n1 X Y ua va ub vb
  clear : ∀ i < n0 - 1, ∀ j < n1 - 1, ClearLine (gridQuad n1 xs ys i j) a b

/-- **C80**, in real numbers, for potentials on a sheared product grid: there is a bound `L`, which depends on the grid and the
potential only, such that if two lines have their nodes no further than `δ` from each other (in the coordinates of the grid),
the flows of all segments that are good in both differ by no more than `L * δ`.  (Without the conditions this is refuted by
`C80_small_move_refuted`.) -/
theorem C80_potential_partial (g : Gels ℝ) (hg : GelsContract g) (srt : List ℝ → List ℝ)
    (hsrt : ∀ l, SortsTo l (srt l)) (n0 n1 : Nat) (h0 : 2 ≤ n0) (h1 : 2 ≤ n1) (hf : n0 * n1 ≤ 1073741824) (xs ys : List ℝ)
    (hx : n0 * n1 ≤ xs.length) (hy : n0 * n1 ≤ ys.length) (X Y : Nat → ℝ) (c e0 e1 : ℝ × ℝ) (hT : TensorGrid n0 n1 X Y c e0 e1 xs ys)
    (phi : Nat → Nat → ℝ) (x y : List ℝ) (hp : PotentialData n0 n1 phi x y) :
    ∃ L : ℝ, 0 ≤ L ∧ ∀ (pert : Nat → Nat → Nat → ℝ) (n : Nat) (us vs us' vs' : List ℝ), 1 ≤ n → n ≤ us.length → n ≤ vs.length →
      n ≤ us'.length → n ≤ vs'.length → ∀ (U V U' V' : Nat → ℝ),
      (∀ k < n, movedNode pert n us vs k = c + U k • e0 + V k • e1 ∧ movedNode pert n us' vs' k = c + U' k • e0 + V' k • e1) →
      ∀ δ : ℝ, (∀ k < n, |U k - U' k| ≤ δ ∧ |V k - V' k| ≤ δ) → ∀ d : List ℝ, n - 1 ≤ d.length →
        ∃ d1 d2, flowWith pert g srt [] n0 n1 xs ys n us vs 1 x y d = .ok d1 ∧
          flowWith pert g srt [] n0 n1 xs ys n us' vs' 1 x y d = .ok d2 ∧
          ∀ k < n - 1,
            GoodSegment n0 n1 X Y xs ys (movedNode pert n us vs k) (movedNode pert n us vs (k + 1)) (U k) (V k) (U (k + 1)) (V (k + 1)) →
            GoodSegment n0 n1 X Y xs ys (movedNode pert n us' vs' k) (movedNode pert n us' vs' (k + 1)) (U' k) (V' k) (U' (k + 1)) (V' (k + 1)) →
            ∃ f1 f2, d1[k]? = some f1 ∧ d2[k]? = some f2 ∧ |f1 - f2| ≤ L * δ := by
  obtain ⟨L, hL, hl⟩ := tensor_lipschitz hT.incX hT.incY phi
  refine ⟨4 * L, by linarith, fun pert n us vs us' vs' hn hu hv hu' hv' U V U' V' hUV δ hδ d hd => ?_⟩
  obtain ⟨d1, r1, s1⟩ := C70_tensor pert g hg srt hsrt n0 n1 h0 h1 hf xs ys hx hy n hn us vs hu hv X Y c e0 e1 hT phi x y hp d hd U V
    (fun k hk => (hUV k hk).1)
  obtain ⟨d2, r2, s2⟩ := C70_tensor pert g hg srt hsrt n0 n1 h0 h1 hf xs ys hx hy n hn us' vs' hu' hv' X Y c e0 e1 hT phi x y hp d hd U' V'
    (fun k hk => (hUV k hk).2)
  refine ⟨d1, d2, r1, r2, fun k hk g1 g2 => ⟨_, _, s1 k hk g1.ina.1 g1.inb.1 g1.ina.2 g1.inb.2 g1.along g1.clear,
    s2 k hk g2.ina.1 g2.inb.1 g2.ina.2 g2.inb.2 g2.along g2.clear, ?_⟩⟩
  have m1 := hl (U (k + 1)) (V (k + 1)) (U' (k + 1)) (V' (k + 1))
  have m2 := hl (U k) (V k) (U' k) (V' k)
  have b1 := hδ k (by omega)
  have b2 := hδ (k + 1) (by omega)
  have p1 : L * (|U (k + 1) - U' (k + 1)| + |V (k + 1) - V' (k + 1)|) ≤ L * (δ + δ) := mul_le_mul_of_nonneg_left (by linarith) hL
  have p2 : L * (|U k - U' k| + |V k - V' k|) ≤ L * (δ + δ) := mul_le_mul_of_nonneg_left (by linarith) hL
  rw [sub_sub_sub_comm]
  refine (abs_sub _ _).trans ?_
  linarith

/-! ### A case -/

/-- The segment from (0, 0) to (2, 1) on the grid of 3 times 3 integer nodes meets the hypotheses on segments of the theorems above: it
has more than a point in cell (0, 0), and is clear of all cells. -/
example (g : Gels ℝ) (hg : GelsContract g) (srt : List ℝ → List ℝ) (hsrt : ∀ l, SortsTo l (srt l)) (x y : List ℝ)
    (hxl : 6 ≤ x.length) (hyl : 6 ≤ y.length) :
    ∃ d', flowWith noPert g srt [] 3 3 [0, 0, 0, 1, 1, 1, 2, 2, 2] [0, 1, 2, 0, 1, 2, 0, 1, 2] 2 [0, 2] [0, 1] 1 x y [7] = .ok d' ∧
      d'[0]? = some (∑ i ∈ Finset.range 2, ∑ j ∈ Finset.range 2,
        fieldIntegral (gridQuad 3 [0, 0, 0, 1, 1, 1, 2, 2, 2] [0, 1, 2, 0, 1, 2, 0, 1, 2] i j) (edgeData 3 x y i j) (0, 0) (2, 1)) := by
  have hq : ∀ i < 2, ∀ j < 2, gridQuad 3 ([0, 0, 0, 1, 1, 1, 2, 2, 2] : List ℝ) [0, 1, 2, 0, 1, 2, 0, 1, 2] i j = zquad (zcell i j) := by
    intro i hi j hj
    funext c
    interval_cases i <;> interval_cases j <;> fin_cases c <;> simp [gridQuad, nodePlace, cellNode, zquad, zcell]
  obtain ⟨d', e, h⟩ := C79_integral_partial noPert g hg srt hsrt 3 3 (by norm_num) (by norm_num) (by norm_num) _ _ (by simp) (by simp) 2 (by norm_num)
    [0, 2] [0, 1] (by simp) (by simp) (fun i hi j hj => tensor_parallelogram square_tensor hi hj) x y hxl hyl [7] (by simp)
  refine ⟨d', e, h 0 (by norm_num) _ _ ?_ ?_ ⟨0, by norm_num, 0, by norm_num, 0, ⟨le_rfl, zero_le_one, ?_⟩, 1 / 2, ⟨by norm_num, by norm_num, ?_⟩, by norm_num⟩ ?_⟩
  · simp [movedNode, noPert]
  · simp [movedNode, noPert]
  · have := at_region (gridQuad 3 ([0, 0, 0, 1, 1, 1, 2, 2, 2] : List ℝ) [0, 1, 2, 0, 1, 2, 0, 1, 2] 0 0) (x := fun _ => 0)
      (fun k => ⟨le_rfl, zero_le_one⟩)
    rw [at_affine (tensor_parallelogram square_tensor (by norm_num) (by norm_num))] at this
    simpa [gridQuad, nodePlace, cellNode] using this
  · have := at_region (gridQuad 3 ([0, 0, 0, 1, 1, 1, 2, 2, 2] : List ℝ) [0, 1, 2, 0, 1, 2, 0, 1, 2] 0 0)
      (x := fun k => if k = 0 then 1 else 1 / 2) (fun k => by dsimp only; split_ifs <;> norm_num)
    rw [at_affine (tensor_parallelogram square_tensor (by norm_num) (by norm_num))] at this
    simpa [gridQuad, nodePlace, cellNode] using this
  · intro i hi j hj
    have hi : i < 2 := hi
    have hj : j < 2 := hj
    have hc : ZConvex (zcell i j) ∧ ZSmall (zcell i j) := by
      interval_cases i <;> interval_cases j <;> exact ⟨by decide, by decide⟩
    rw [hq i hi j hj]
    simpa using clearLine_int hc.1 hc.2 (0, 0) (2, 1) (by norm_num) (by norm_num) (Or.inr (by decide))

/-- The hypotheses of `C78_kept_partial` hold: the line from (3, 0) to (4, 1), right of two by two squares. -/
example (g : Gels ℝ) (hg : GelsContract g) (srt : List ℝ → List ℝ) (hsrt : ∀ l, SortsTo l (srt l)) (x y : List ℝ)
    (hxl : 6 ≤ x.length) (hyl : 6 ≤ y.length) :
    ∃ d', flowWith noPert g srt [] 3 3 [0, 0, 0, 1, 1, 1, 2, 2, 2] [0, 1, 2, 0, 1, 2, 0, 1, 2] 2 [3, 4] [0, 1] 1 x y [7] = .ok d' ∧
      d'[0]? = some 7 := by
  have hq : ∀ i < 2, ∀ j < 2, gridQuad 3 ([0, 0, 0, 1, 1, 1, 2, 2, 2] : List ℝ) [0, 1, 2, 0, 1, 2, 0, 1, 2] i j = zquad (zcell i j) := by
    intro i hi j hj
    funext c
    interval_cases i <;> interval_cases j <;> fin_cases c <;> simp [gridQuad, nodePlace, cellNode, zquad, zcell]
  obtain ⟨d', e, h⟩ := C78_kept_partial noPert g hg srt hsrt 3 3 (by norm_num) (by norm_num) (by norm_num) _ _ (by simp) (by simp) 2 (by norm_num)
    [3, 4] [0, 1] (by simp) (by simp) (fun i hi j hj => convexQuad_of (tensor_parallelogram square_tensor hi hj)) x y hxl hyl [7] (by simp)
  refine ⟨d', e, h 0 (by norm_num) (3, 0) (4, 1) (by simp [movedNode, noPert]) (by simp [movedNode, noPert]) fun i hi j hj => ⟨?_, ?_⟩⟩
  · have hi : i < 2 := hi
    have hj : j < 2 := hj
    have hc : ZConvex (zcell i j) ∧ ZSmall (zcell i j) := by
      interval_cases i <;> interval_cases j <;> exact ⟨by decide, by decide⟩
    rw [hq i hi j hj]
    simpa using clearLine_int hc.1 hc.2 (3, 0) (4, 1) (by norm_num) (by norm_num) (Or.inr (by decide))
  · rw [Set.eq_empty_iff_forall_notMem]
    rintro t ⟨h0, h1, ht⟩
    have := (tensor_region square_tensor hi hj (u := 3 + t) (v := t)).1 (by
      have e : (0, 0) + (3 + t) • ((1, 0) : ℝ × ℝ) + t • ((0, 1) : ℝ × ℝ) = (3, 0) + t • ((4, 1) - (3, 0)) := by
        ext <;> simp; norm_num
      rw [e]; exact ht)
    have hi : i < 2 := hi
    interval_cases i <;> norm_num at this <;> linarith [this.1.2]

end Sg.Props
