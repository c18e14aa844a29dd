import Verif.Props.FlowTurn
import Verif.Spec.RoundedFlow
/-
Property C79 on cells of any convex shape.
`g` is the linear algebra library, `srt` is `std::sort` and `pert` the perturbation of the nodes of the line.
-/
namespace Sg.Props
open Sg Sg.FlowInterp Sg.QuadIntersect Sg.QuadFlows Sg.LinearSolve Sg.Triangulate Sg.FindPoint Sg.QuadLine Sg.Spec

theorem cellX_in {g : Gels ℝ} (hg : GelsContract g) (q : Quad ℝ) (p : ℝ × ℝ) : InCell (cellX g q p) := by
  have hq : HasQuad q (Flows.new.setQuadPoints q).finder := hasQuad_set (flowsReached_finder g ⟨[], rfl⟩)
  exact (foundX_eq g hg.sizes hq hq (sameGrid_refl _) p).choose_spec.choose_spec.2.2.2

/-- **C79**, in real numbers, cells of any convex shape, any edge data.  Every cell `(i, j)` has an assignment `X i j` of index positions to
points, which for trapezoids is the inverse of the bilinear map up to 1e-10, such that for all lines and data the flow of a segment (as
stored) that has more than a point in some cell, and for which no decision is closer than the tolerance of the intersector, is the sum
over the cells of what belongs to the first and the last point of its part in the cell, however many times the code collected these
points.  A cell with no part of the segment, or one point of it, counts for nothing. -/
theorem C79_ends_partial (g : Gels ℝ) (hg : GelsContract g) (srt : List ℝ → List ℝ)
    (hsrt : ∀ l, SortsTo l (srt l)) (n0 n1 : Nat) (h0 : 2 ≤ n0) (h1 : 2 ≤ n1) (hf : n0 * n1 ≤ 1073741824) (xs ys : List ℝ)
    (hx : n0 * n1 ≤ xs.length) (hy : n0 * n1 ≤ ys.length)
    (hcv : ∀ i < n0 - 1, ∀ j < n1 - 1, ConvexQuad (gridQuad n1 xs ys i j)) :
    ∃ X : Nat → Nat → ℝ × ℝ → Fin 2 → ℝ,
      (∀ i j p, InCell (X i j p)) ∧
      (∀ i < n0 - 1, ∀ j < n1 - 1, Trapezoid (gridQuad n1 xs ys i j) → ∀ p ∈ quadRegion (gridQuad n1 xs ys i j),
        apart (bilin (fun c => (gridQuad n1 xs ys i j c).1) (X i j p), bilin (fun c => (gridQuad n1 xs ys i j c).2) (X i j p)) p < 1 / 10 ^ 10) ∧
      ∀ (pert : Nat → Nat → Nat → ℝ) (n : Nat), 1 ≤ n → ∀ us vs : List ℝ, n ≤ us.length → n ≤ vs.length → ∀ x y : List ℝ,
        (n0 - 1) * n1 ≤ x.length → n0 * (n1 - 1) ≤ y.length → ∀ d : List ℝ, n - 1 ≤ d.length →
        ∃ d', flowWith pert g srt [] n0 n1 xs ys n us vs 1 x y d = .ok d' ∧
          ∀ k < n - 1, ∀ a b, a = movedNode pert n us vs k → b = movedNode pert n us vs (k + 1) → MetSegment n0 n1 xs ys a b →
            d'[k]? = some (∑ i ∈ Finset.range (n0 - 1), ∑ j ∈ Finset.range (n1 - 1),
              flowDot (projAt (X i j (a + sInf (insideParams (gridQuad n1 xs ys i j) a b) • (b - a)))
                (X i j (a + sSup (insideParams (gridQuad n1 xs ys i j) a b) • (b - a)))) (edgeData n1 x y i j)) := by
  refine ⟨fun i j p => cellX g (gridQuad n1 xs ys i j) p, fun i j p => cellX_in hg _ p, fun i hi j hj ht p hp =>
    ((Sg.Trap.trapezoid_locates ht).found hg ⟨[], rfl⟩ hp).2, ?_⟩
  intro pert n hn us vs hu hv x y hxl hyl d hd
  obtain ⟨S, hS, hrun⟩ := flow_data pert g hg.sizes srt n0 n1 h0 h1 hf xs ys hx hy n hn us vs hu hv
  obtain ⟨d', e, -, -, hd'⟩ := hrun x y hxl hyl d hd
  refine ⟨d', e, fun k hk a b ea eb m => ?_⟩
  have hSk := hS k hk
  rw [← ea, ← eb] at hSk
  rw [hd' k hk, if_neg (met_stored hg hsrt hcv m hSk)]
  congr 1
  rw [← sum_cells n0 n1 (by omega)]
  refine Finset.sum_congr rfl fun c hc => ?_
  have hc := Finset.mem_range.mp hc
  obtain ⟨-, -, h3, h4⟩ := FlowInterp.cell_split hc
  rw [cellEdges_data x y hc]
  have hpa : ∀ x y : Fin 2 → ℝ, projAt x y = projOf x y := by
    intro x y; funext e
    have : (1 : ℝ) / (1 + 1) = 1 / 2 := by norm_num
    fin_cases e <;> simp only [projOf, projAt, this, Fin.zero_eta, Fin.mk_one, Fin.reduceFinMk] <;> ring
  simp only [hpa]
  rcases cell_ends hg hsrt (hcv _ h3 _ h4) (m.clear _ h3 _ h4) (hSk c hc) (edgeData n1 x y (c / (n1 - 1)) (c % (n1 - 1))) with
    ⟨hI, hl⟩ | ⟨lo, hi, hle, hI, hl⟩
  · rw [hI, hl, Real.sInf_empty, Real.sSup_empty]
    unfold flowDot
    simp [projOf_self]
  · rw [hI, csInf_Icc hle, csSup_Icc hle, hl]

/-- In a cell without parallel sides: every line through it. -/
example (g : Gels ℝ) (hg : GelsContract g) (srt : List ℝ → List ℝ) (hsrt : ∀ l, SortsTo l (srt l)) (x y : List ℝ)
    (hxl : 2 ≤ x.length) (hyl : 2 ≤ y.length) :
    ∃ (X : ℝ × ℝ → Fin 2 → ℝ) (d' : List ℝ), (∀ p, InCell (X p)) ∧
      flowWith noPert g srt [] 2 2 [0, 0, 4, 6] [0, 4, 0, 6] 2 [1, 3] [1, 3] 1 x y [7] = .ok d' ∧
      d'[0]? = some (flowDot (projAt (X (1, 1)) (X (3, 3))) (edgeData 2 x y 0 0)) := by
  obtain ⟨X, h1, -, h⟩ := C79_ends_partial g hg srt hsrt 2 2 (by norm_num) (by norm_num) (by norm_num) _ _ (by simp)
    (by simp) general_convex
  obtain ⟨d', e, h⟩ := h noPert 2 (by norm_num) [1, 3] [1, 3] (by simp) (by simp) x y hxl hyl [7] (by simp)
  have hm := general_met 0 2 (by decide)
  norm_num at hm
  have hv := h 0 (by norm_num) (1, 1) (3, 3) (by simp [movedNode, noPert]) (by simp [movedNode, noPert]) hm
  have hI : insideParams (gridQuad 2 ([0, 0, 4, 6] : List ℝ) [0, 4, 0, 6] 0 0) (1, 1) (3, 3) = Set.Icc 0 1 := by
    rw [general_cell 0 (by norm_num) 0 (by norm_num)]
    ext t
    refine ⟨fun ht => ⟨ht.1, ht.2.1⟩, fun ht => ⟨ht.1, ht.2, ?_⟩⟩
    refine (convex_convexHull ℝ _).segment_subset (subset_convexHull ℝ _ (Set.mem_range_self (0 : Fin 4)))
      (subset_convexHull ℝ _ (Set.mem_range_self (2 : Fin 4))) ?_
    refine mem_segment_iff.mpr ⟨(1 + 2 * t) / 6, by linarith [ht.1], by linarith [ht.2], ?_⟩
    refine Prod.ext ?_ ?_ <;> (simp [zquad, zGeneral]; try ring)
  refine ⟨X 0 0, d', h1 0 0, e, ?_⟩
  rw [hv]
  simp only [Nat.add_one_sub_one, Finset.range_one, Finset.sum_singleton]
  rw [hI, csInf_Icc zero_le_one, csSup_Icc zero_le_one]
  norm_num

end Sg.Props
