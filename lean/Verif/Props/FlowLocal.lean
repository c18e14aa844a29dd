import Verif.Props.FlowTurn
/-
Property C141: the flow of a segment depends on its two nodes, not on the rest of the line.
`g` is the linear algebra library, `srt` is `std::sort` and `pert` the perturbation of the nodes of the line.
-/
namespace Sg.Props
open Sg Sg.FlowInterp Sg.QuadIntersect Sg.QuadFlows Sg.LinearSolve Sg.Triangulate Sg.FindPoint Sg.QuadLine Sg.Spec Sg.Witness

/-- **C141**, in real numbers, cells of any convex shape, any edge data.  Missing: segments closer to a corner or an edge than the
tolerance of the intersector, for which it is false (`C141_refuted`).  Two lines with any numbers of nodes: segments `k` of the first and
`k'` of the second with the same two nodes (as stored) have the same flow. -/
theorem C141_segment_partial (pert pert' : Nat → Nat → Nat → ℝ) (g : Gels ℝ) (hg : GelsContract g) (srt : List ℝ → List ℝ)
    (hsrt : ∀ l, SortsTo l (srt l)) (n0 n1 : Nat) (h0 : 2 ≤ n0) (h1 : 2 ≤ n1) (hf : n0 * n1 ≤ 1073741824) (xs ys : List ℝ)
    (hx : n0 * n1 ≤ xs.length) (hy : n0 * n1 ≤ ys.length)
    (hcv : ∀ i < n0 - 1, ∀ j < n1 - 1, ConvexQuad (gridQuad n1 xs ys i j))
    (n n' : Nat) (hn : 1 ≤ n) (hn' : 1 ≤ n') (us vs us' vs' : List ℝ) (hu : n ≤ us.length) (hv : n ≤ vs.length) (hu' : n' ≤ us'.length)
    (hv' : n' ≤ vs'.length) (x y : List ℝ)
    (hxl : (n0 - 1) * n1 ≤ x.length) (hyl : n0 * (n1 - 1) ≤ y.length) (d e : List ℝ) (hd : n - 1 ≤ d.length) (he : n' - 1 ≤ e.length) :
    ∃ d' e', flowWith pert g srt [] n0 n1 xs ys n us vs 1 x y d = .ok d' ∧
      flowWith pert' g srt [] n0 n1 xs ys n' us' vs' 1 x y e = .ok e' ∧
      ∀ k < n - 1, ∀ k' < n' - 1, movedNode pert' n' us' vs' k' = movedNode pert n us vs k →
        movedNode pert' n' us' vs' (k' + 1) = movedNode pert n us vs (k + 1) →
        MetSegment n0 n1 xs ys (movedNode pert n us vs k) (movedNode pert n us vs (k + 1)) →
        ∃ v, d'[k]? = some v ∧ e'[k']? = some v := by
  obtain ⟨S, hS, hD⟩ := flow_data pert g hg.sizes srt n0 n1 h0 h1 hf xs ys hx hy n hn us vs hu hv
  obtain ⟨T, hT, hE⟩ := flow_data pert' g hg.sizes srt n0 n1 h0 h1 hf xs ys hx hy n' hn' us' vs' hu' hv'
  obtain ⟨d', hd', -, -, hdv⟩ := hD x y hxl hyl d hd
  obtain ⟨e', he', -, -, hev⟩ := hE x y hxl hyl e he
  refine ⟨d', e', hd', he', fun k hk k' hk' e1 e2 m => ?_⟩
  have hTk := hT k' hk'
  rw [e1, e2] at hTk
  have hSk := hS k hk
  refine ⟨_, (hdv k hk).trans (if_neg (met_stored hg hsrt hcv m hSk)), ((hev k' hk').trans (if_neg (met_stored hg hsrt hcv m hTk))).trans ?_⟩
  congr 1
  refine Finset.sum_congr rfl fun j hj => ?_
  rw [Finset.mem_range] at hj
  obtain ⟨-, -, c1, c2⟩ := FlowInterp.cell_split hj
  exact cell_repeat hg hsrt (hcv _ c1 _ c2) (m.clear _ c1 _ c2) (hSk j hj) (hTk j hj) _

/-- The segment from (1, 1) to (3, 3), alone and as the second segment of a longer line, in a cell without parallel sides. -/
example (g : Gels ℝ) (hg : GelsContract g) (srt : List ℝ → List ℝ) (hsrt : ∀ l, SortsTo l (srt l)) (x y : List ℝ)
    (hxl : 2 ≤ x.length) (hyl : 2 ≤ y.length) :
    ∃ d' e', flowWith noPert g srt [] 2 2 [0, 0, 4, 6] [0, 4, 0, 6] 2 [1, 3] [1, 3] 1 x y [7] = .ok d' ∧
      flowWith noPert g srt [] 2 2 [0, 0, 4, 6] [0, 4, 0, 6] 4 [5, 1, 3, 0] [9, 1, 3, 2] 1 x y [7, 7, 7] = .ok e' ∧
      ∃ v : ℝ, d'[0]? = some v ∧ e'[1]? = some v := by
  obtain ⟨d', e', h1, h2, h⟩ := C141_segment_partial noPert noPert g hg srt hsrt 2 2 (by norm_num) (by norm_num) (by norm_num) _ _ (by simp)
    (by simp) general_convex 2 4 (by norm_num) (by norm_num) [1, 3] [1, 3] [5, 1, 3, 0] [9, 1, 3, 2] (by simp) (by simp) (by simp)
    (by simp) x y hxl hyl [7] [7, 7, 7] (by simp) (by simp)
  refine ⟨d', e', h1, h2, h 0 (by norm_num) 1 (by norm_num) (by simp [movedNode, noPert]) (by simp [movedNode, noPert]) ?_⟩
  have := general_met 0 2 (by decide)
  norm_num at this
  simpa [movedNode, noPert] using this

/-- **C141 is false near the tolerance**, with the perturbation the code makes.  Two cells with corners (100, 0), (200, 0), (200, 100),
(100, 100) and (100, 100), (200, 100), (200, 200), (0, 200); the segment from (100 - 1e-12, 50) to (150, 50) is the second one of two lines that differ in their first
node.  The flow of the field 1 along the first axis through it is nearly 0 if the first node is (150, 60) and nearly 1/2 if it is (150, 150): the
search remembers the box of the cells it was used for before, and the node, which the intersector takes for one in the cell, is outside of
the box of the cell and inside of the box of both. -/
theorem C141_refuted :
    ∃ u v u' v' : ℚ, flowWith pert3 cramerGels sortReal [] 2 3 [100, 100, 0, 200, 200, 200] [0, 100, 200, 0, 100, 200] 3 [150, 100 - 1 / 10 ^ 12, 150]
      [60, 50, 50] 1 [1, 1, 1] [0, 0, 0, 0] [7, 7] = .ok [u, v] ∧
      flowWith pert3 cramerGels sortReal [] 2 3 [100, 100, 0, 200, 200, 200] [0, 100, 200, 0, 100, 200] 3 [150, 100 - 1 / 10 ^ 12, 150]
      [150, 50, 50] 1 [1, 1, 1] [0, 0, 0, 0] [7, 7] = .ok [u', v'] ∧ |v| < 1 / 100 ∧ 49 / 100 < v' := by
  have h : (flowWith pert3 cramerGels sortReal [] 2 3 [100, 100, 0, 200, 200, 200] [0, 100, 200, 0, 100, 200] 3 [150, 100 - 1 / 10 ^ 12, 150]
      [60, 50, 50] 1 [1, 1, 1] [0, 0, 0, 0] [7, 7] >>= fun d =>
      flowWith pert3 cramerGels sortReal [] 2 3 [100, 100, 0, 200, 200, 200] [0, 100, 200, 0, 100, 200] 3 [150, 100 - 1 / 10 ^ 12, 150]
      [150, 50, 50] 1 [1, 1, 1] [0, 0, 0, 0] [7, 7] >>= fun d' =>
      .ok (d.length, d'.length, decide (d.getD 1 (7 : ℚ) < 1 / 100), decide (-(1 / 100) < d.getD 1 (7 : ℚ)),
        decide (49 / 100 < d'.getD 1 (0 : ℚ)))) = .ok (2, 2, true, true, true) := by decide +kernel
  obtain ⟨d, e, h⟩ := bind_ok_inv h
  obtain ⟨d', e', h⟩ := bind_ok_inv h
  simp only [Except.ok.injEq, Prod.mk.injEq, decide_eq_true_eq] at h
  obtain ⟨hl, hl', h1, h2, h3⟩ := h
  obtain ⟨u, v, rfl⟩ : ∃ u v, d = [u, v] := by
    match d, hl with
    | [u, v], _ => exact ⟨u, v, rfl⟩
  obtain ⟨u', v', rfl⟩ : ∃ u v, d' = [u, v] := by
    match d', hl' with
    | [u, v], _ => exact ⟨u, v, rfl⟩
  exact ⟨u, v, u', v', e, e', abs_lt.mpr ⟨h2, h1⟩, h3⟩

end Sg.Props
