import Verif.Proof.Located
/-
Property C117: flows of a potential on grids whose cells have two parallel sides, in exact arithmetic.
-/
namespace Sg.Props
open Sg Sg.LinearSolve Sg.Triangulate Sg.QuadIntersect Sg.FindPoint Sg.QuadLine Sg.QuadFlows Sg.FlowInterp Sg.Spec Sg.Plane Sg.Trap

/-- **C117**, one quadrilateral: for any two points of a trapezoid, after any history, the projections are computed with code 0,
and they give the flow of every potential between two points of the trapezoid that are nearer to the given ones than `1e-10`. -/
theorem C117_projections (g : Gels ℝ) (hg : GelsContract g) (q : Quad ℝ) (hq : Trapezoid q) (s0 s : Flows ℝ) (h0 : FlowsReached g s0)
    (h : FlowsAfter g (s0.setQuadPoints q) s) (a b : Pt ℝ) (ha : a ∈ quadRegion q) (hb : b ∈ quadRegion q) :
    ∃ p xa xb, project g s a b = .ok (0, p) ∧ InCell xa ∧ InCell xb ∧ apart (at_ q xa) a < 1 / 10 ^ 10 ∧
      apart (at_ q xb) b < 1 / 10 ^ 10 ∧ ∀ v, flowDot p (edgeDiff v) = bilin v xb - bilin v xa :=
  located_projections g hg q (trapezoid_locates hq) s0 s h0 h a b ha hb

/-- **C117**, a segment of a line.  The cells of the grid are trapezoids and the edge data are differences of a nodal potential.
`f` is a function along the segment that follows the interpolated potential: at every point of the segment in a cell, up to
`δ`, it is the interpolant of this cell plus a constant of the cell at the positions whose places are nearer to the point than
`1e-10`.  If the segment is covered by cells, no two of which share more than a point of it, and no decision is closer than the
tolerance of the intersector, the flow differs from the change of `f` along the segment by at most `2 δ` for each cell that the
segment meets. -/
theorem C117_flow (pert : Nat → Nat → Nat → ℝ) (g : Gels ℝ) (hg : GelsContract g) (srt : List ℝ → List ℝ)
    (hsrt : ∀ l, SortsTo l (srt l)) (n0 n1 : Nat) (h0 : 2 ≤ n0) (h1 : 2 ≤ n1) (hf : n0 * n1 ≤ 1073741824) (xs ys : List ℝ)
    (hx : n0 * n1 ≤ xs.length) (hy : n0 * n1 ≤ ys.length) (n : Nat) (hn : 1 ≤ n) (us vs : List ℝ) (hu : n ≤ us.length)
    (hv : n ≤ vs.length) (htr : ∀ i < n0 - 1, ∀ j < n1 - 1, Trapezoid (gridQuad n1 xs ys i j))
    (phi : Nat → Nat → ℝ) (x y : List ℝ) (hp : PotentialData n0 n1 phi x y) (d : List ℝ) (hd : n - 1 ≤ d.length) :
    ∃ d', flowWith pert g srt [] n0 n1 xs ys n us vs 1 x y d = .ok d' ∧
      ∀ k < n - 1, ∀ a b, a = movedNode pert n us vs k → b = movedNode pert n us vs (k + 1) →
        (∀ p ∈ segment ℝ a b, ∃ i < n0 - 1, ∃ j < n1 - 1, p ∈ quadRegion (gridQuad n1 xs ys i j)) →
        (∀ i < n0 - 1, ∀ j < n1 - 1, ∀ i' < n0 - 1, ∀ j' < n1 - 1, (i, j) ≠ (i', j') →
          (insideParams (gridQuad n1 xs ys i j) a b ∩ insideParams (gridQuad n1 xs ys i' j') a b).Subsingleton) →
        (∀ i < n0 - 1, ∀ j < n1 - 1, ClearLine (gridQuad n1 xs ys i j) a b) →
        ∀ (c : Nat → Nat → ℝ) (f : ℝ → ℝ) (δ : ℝ),
          (∀ i < n0 - 1, ∀ j < n1 - 1, ∀ t ∈ insideParams (gridQuad n1 xs ys i j) a b, ∀ z, InCell z →
            apart (at_ (gridQuad n1 xs ys i j) z) (a + t • (b - a)) < 1 / 10 ^ 10 → |bilin (cellPhi phi i j) z + c i j - f t| ≤ δ) →
          ∃ w, d'[k]? = some w ∧ |w - (f 1 - f 0)| ≤
            (Set.ncard {ij : Nat × Nat | ij.1 < n0 - 1 ∧ ij.2 < n1 - 1 ∧ (insideParams (gridQuad n1 xs ys ij.1 ij.2) a b).Nonempty} : ℝ) *
              (2 * δ) :=
  located_flow pert g hg srt hsrt n0 n1 h0 h1 hf xs ys hx hy n hn us vs hu hv (fun i hi j hj => trapezoid_locates (htr i hi j hj)) phi x y hp d hd

end Sg.Props
