import Verif.Proof.FlowMaps
import Verif.Props.FlowReverse
import Verif.Props.FlowLocal
/-
Property C142: the flow does not depend on the coordinate system nor on how the nodes of the grid are numbered.
`g` is the linear algebra library, `srt` is `std::sort` and `pert` the perturbation of the nodes of the line.
-/
namespace Sg.Props
open Sg Sg.FlowInterp Sg.QuadIntersect Sg.QuadFlows Sg.LinearSolve Sg.Triangulate Sg.FindPoint Sg.QuadLine Sg.Spec Sg.Witness Sg.Plane

theorem node_lt {n0 n1 i j : Nat} (hi : i < n0) (hj : j < n1) : i * n1 + j < n0 * n1 :=
  calc i * n1 + j < i * n1 + n1 := Nat.add_lt_add_left hj _
    _ = (i + 1) * n1 := by ring
    _ ≤ n0 * n1 := Nat.mul_le_mul_right _ hi

theorem gridQuad_image {φ : AffineMap2} {n0 n1 : Nat} {xs ys xs' ys' : List ℝ} (h : MapsNodes φ (n0 * n1) xs ys xs' ys') {i j : Nat}
    (hi : i < n0 - 1) (hj : j < n1 - 1) : gridQuad n1 xs' ys' i j = fun k => φ.app (gridQuad n1 xs ys i j k) := by
  funext k
  fin_cases k
  · exact h _ (node_lt (n0 := n0) (n1 := n1) (i := i) (j := j) (by omega) (by omega))
  · exact h _ (node_lt (n0 := n0) (n1 := n1) (i := i + 1) (j := j) (by omega) (by omega))
  · exact h _ (node_lt (n0 := n0) (n1 := n1) (i := i + 1) (j := j + 1) (by omega) (by omega))
  · exact h _ (node_lt (n0 := n0) (n1 := n1) (i := i) (j := j + 1) (by omega) (by omega))

theorem met_image {φ : AffineMap2} (hφ : φ.det ≠ 0) {n0 n1 : Nat} {xs ys xs' ys' : List ℝ} (h : MapsNodes φ (n0 * n1) xs ys xs' ys') {a b : ℝ × ℝ}
    (m : MetSegment n0 n1 xs ys a b) : MetSegment n0 n1 xs' ys' (φ.app a) (φ.app b) := by
  constructor
  · obtain ⟨i, hi, j, hj, hn⟩ := m.met
    refine ⟨i, hi, j, hj, ?_⟩
    rw [gridQuad_image h hi hj, insideParams_image φ hφ]
    exact hn
  · intro i hi j hj
    rw [gridQuad_image h hi hj]
    exact clearLine_image φ hφ _ _ _ (m.clear i hi j hj)

/-- **C142**, in real numbers, cells that are parallelograms.  Missing: segments closer to a corner or an edge than the tolerance of the
intersector, for which it is false (`C142_refuted`).  If the nodes of the grid and those of the line (as stored) are mapped by an invertible
affine map (a shift, rotation, reflection, shear, change of the unit of one or both axes, and what they compose to) and the numbers on the
edges stay, the flows stay. -/
theorem C142_affine_partial (φ : AffineMap2) (hφ : φ.det ≠ 0) (pert pert' : Nat → Nat → Nat → ℝ) (g : Gels ℝ) (hg : GelsContract g)
    (srt : List ℝ → List ℝ) (hsrt : ∀ l, SortsTo l (srt l)) (n0 n1 : Nat) (h0 : 2 ≤ n0) (h1 : 2 ≤ n1) (hf : n0 * n1 ≤ 1073741824)
    (xs ys xs' ys' : List ℝ) (hx : n0 * n1 ≤ xs.length) (hy : n0 * n1 ≤ ys.length) (hx' : n0 * n1 ≤ xs'.length) (hy' : n0 * n1 ≤ ys'.length)
    (hgrid : MapsNodes φ (n0 * n1) xs ys xs' ys')
    (hpar : ∀ i < n0 - 1, ∀ j < n1 - 1, Parallelogram (gridQuad n1 xs ys i j))
    (n : Nat) (hn : 1 ≤ n) (us vs us' vs' : List ℝ) (hu : n ≤ us.length) (hv : n ≤ vs.length) (hu' : n ≤ us'.length) (hv' : n ≤ vs'.length)
    (hline : ∀ k < n, movedNode pert' n us' vs' k = φ.app (movedNode pert n us vs k)) (x y : List ℝ)
    (hxl : (n0 - 1) * n1 ≤ x.length) (hyl : n0 * (n1 - 1) ≤ y.length) (d e : List ℝ) (hd : n - 1 ≤ d.length) (he : n - 1 ≤ e.length) :
    ∃ d' e', flowWith pert g srt [] n0 n1 xs ys n us vs 1 x y d = .ok d' ∧
      flowWith pert' g srt [] n0 n1 xs' ys' n us' vs' 1 x y e = .ok e' ∧
      ∀ k < n - 1, MetSegment n0 n1 xs ys (movedNode pert n us vs k) (movedNode pert n us vs (k + 1)) →
        ∃ v, d'[k]? = some v ∧ e'[k]? = some v := by
  obtain ⟨d', hd', h⟩ := C79_integral_partial pert g hg srt hsrt n0 n1 h0 h1 hf xs ys hx hy n hn us vs hu hv hpar x y hxl hyl d hd
  obtain ⟨e', he', h'⟩ := C79_integral_partial pert' g hg srt hsrt n0 n1 h0 h1 hf xs' ys' hx' hy' n hn us' vs' hu' hv'
    (fun i hi j hj => by rw [gridQuad_image hgrid hi hj]; exact parallelogram_image φ hφ _ (hpar i hi j hj)) x y hxl hyl e he
  refine ⟨d', e', hd', he', fun k hk m => ⟨_, h k hk _ _ rfl rfl m.met m.clear, ?_⟩⟩
  have m' := met_image hφ hgrid m
  rw [h' k hk _ _ (hline k (by omega)).symm (hline (k + 1) (by omega)).symm m'.met m'.clear]
  congr 1
  refine Finset.sum_congr rfl fun i hi => Finset.sum_congr rfl fun j hj => ?_
  rw [gridQuad_image hgrid (Finset.mem_range.mp hi) (Finset.mem_range.mp hj), fieldIntegral_image φ hφ]

/-- The grid and the numbers on its edges with the two axes exchanged: node `(j, i)` is node `(i, j)`. -/
structure AxesExchanged (n0 n1 : Nat) (xs ys x y xs' ys' x' y' : List ℝ) : Prop where
  node : ∀ i < n0, ∀ j < n1, xs'.getD (nodePlace n0 (j, i)) 0 = xs.getD (nodePlace n1 (i, j)) 0 ∧
    ys'.getD (nodePlace n0 (j, i)) 0 = ys.getD (nodePlace n1 (i, j)) 0
  first : ∀ i < n0, ∀ j < n1 - 1, x'.getD (xEdge n0 j i) 0 = y.getD (yEdge n1 i j) 0
  second : ∀ i < n0 - 1, ∀ j < n1, y'.getD (yEdge n0 j i) 0 = x.getD (xEdge n1 i j) 0

theorem gridQuad_crossed {n0 n1 : Nat} {xs ys x y xs' ys' x' y' : List ℝ} (h : AxesExchanged n0 n1 xs ys x y xs' ys' x' y') {i j : Nat}
    (hi : i < n0 - 1) (hj : j < n1 - 1) : gridQuad n0 xs' ys' j i = crossed (gridQuad n1 xs ys i j) := by
  funext k
  fin_cases k
  · exact Prod.ext (h.node i (by omega) j (by omega)).1 (h.node i (by omega) j (by omega)).2
  · exact Prod.ext (h.node i (by omega) (j + 1) (by omega)).1 (h.node i (by omega) (j + 1) (by omega)).2
  · exact Prod.ext (h.node (i + 1) (by omega) (j + 1) (by omega)).1 (h.node (i + 1) (by omega) (j + 1) (by omega)).2
  · exact Prod.ext (h.node (i + 1) (by omega) j (by omega)).1 (h.node (i + 1) (by omega) j (by omega)).2

theorem edgeData_crossed {n0 n1 : Nat} {xs ys x y xs' ys' x' y' : List ℝ} (h : AxesExchanged n0 n1 xs ys x y xs' ys' x' y') {i j : Nat}
    (hi : i < n0 - 1) (hj : j < n1 - 1) : edgeData n0 x' y' j i = crossedData (edgeData n1 x y i j) := by
  funext k
  fin_cases k
  · exact h.first i (by omega) j (by omega)
  · exact h.first (i + 1) (by omega) j (by omega)
  · exact h.second i (by omega) j (by omega)
  · exact h.second i (by omega) (j + 1) (by omega)

/-- **C142**, in real numbers, cells that are parallelograms: the flow does not depend on which index of the grid is the first.  The segments are to be clear of the
tolerance in both numberings. -/
theorem C142_axes_partial (pert : Nat → Nat → Nat → ℝ) (g : Gels ℝ) (hg : GelsContract g)
    (srt : List ℝ → List ℝ) (hsrt : ∀ l, SortsTo l (srt l)) (n0 n1 : Nat) (h0 : 2 ≤ n0) (h1 : 2 ≤ n1) (hf : n0 * n1 ≤ 1073741824)
    (xs ys x y xs' ys' x' y' : List ℝ) (hx : n0 * n1 ≤ xs.length) (hy : n0 * n1 ≤ ys.length) (hx' : n0 * n1 ≤ xs'.length) (hy' : n0 * n1 ≤ ys'.length)
    (hxl : (n0 - 1) * n1 ≤ x.length) (hyl : n0 * (n1 - 1) ≤ y.length) (hxl' : (n1 - 1) * n0 ≤ x'.length) (hyl' : n1 * (n0 - 1) ≤ y'.length)
    (hex : AxesExchanged n0 n1 xs ys x y xs' ys' x' y')
    (hpar : ∀ i < n0 - 1, ∀ j < n1 - 1, Parallelogram (gridQuad n1 xs ys i j))
    (n : Nat) (hn : 1 ≤ n) (us vs : List ℝ) (hu : n ≤ us.length) (hv : n ≤ vs.length)
    (d e : List ℝ) (hd : n - 1 ≤ d.length) (he : n - 1 ≤ e.length) :
    ∃ d' e', flowWith pert g srt [] n0 n1 xs ys n us vs 1 x y d = .ok d' ∧
      flowWith pert g srt [] n1 n0 xs' ys' n us vs 1 x' y' e = .ok e' ∧
      ∀ k < n - 1, ∀ a b, a = movedNode pert n us vs k → b = movedNode pert n us vs (k + 1) → MetSegment n0 n1 xs ys a b →
        (∀ j < n1 - 1, ∀ i < n0 - 1, ClearLine (gridQuad n0 xs' ys' j i) a b) → ∃ v, d'[k]? = some v ∧ e'[k]? = some v := by
  obtain ⟨d', hd', h⟩ := C79_integral_partial pert g hg srt hsrt n0 n1 h0 h1 hf xs ys hx hy n hn us vs hu hv hpar x y hxl hyl d hd
  obtain ⟨e', he', h'⟩ := C79_integral_partial pert g hg srt hsrt n1 n0 h1 h0 (by rw [Nat.mul_comm]; exact hf) xs' ys'
    (by rw [Nat.mul_comm]; exact hx') (by rw [Nat.mul_comm]; exact hy') n hn us vs hu hv
    (fun j hj i hi => by rw [gridQuad_crossed hex hi hj]; exact parallelogram_crossed (hpar i hi j hj)) x' y' hxl' hyl' e he
  refine ⟨d', e', hd', he', fun k hk a b ea eb m hc => ⟨_, h k hk a b ea eb m.met m.clear, ?_⟩⟩
  obtain ⟨i, hi, j, hj, hm⟩ := m.met
  rw [h' k hk a b ea eb ⟨j, hj, i, hi, by rw [gridQuad_crossed hex hi hj, insideParams_crossed]; exact hm⟩ hc, Finset.sum_comm]
  congr 1
  refine Finset.sum_congr rfl fun i hi => Finset.sum_congr rfl fun j hj => ?_
  have hi := Finset.mem_range.mp hi
  have hj := Finset.mem_range.mp hj
  rw [gridQuad_crossed hex hi hj, edgeData_crossed hex hi hj, fieldIntegral_crossed]

/-- The grid and the numbers on its edges with the first axis turned round: the nodes `(i, j)` are counted from the other end, and the edges along the first axis
have the opposite direction. -/
structure AxisTurned (n0 n1 : Nat) (xs ys x y xs' ys' x' y' : List ℝ) : Prop where
  node : ∀ i < n0, ∀ j < n1, xs'.getD (nodePlace n1 (i, j)) 0 = xs.getD (nodePlace n1 (n0 - 1 - i, j)) 0 ∧
    ys'.getD (nodePlace n1 (i, j)) 0 = ys.getD (nodePlace n1 (n0 - 1 - i, j)) 0
  first : ∀ i < n0 - 1, ∀ j < n1, x'.getD (xEdge n1 i j) 0 = -x.getD (xEdge n1 (n0 - 2 - i) j) 0
  second : ∀ i < n0, ∀ j < n1 - 1, y'.getD (yEdge n1 i j) 0 = y.getD (yEdge n1 (n0 - 1 - i) j) 0

theorem gridQuad_turned {n0 n1 : Nat} {xs ys x y xs' ys' x' y' : List ℝ} (h : AxisTurned n0 n1 xs ys x y xs' ys' x' y') {i j : Nat}
    (hi : i < n0 - 1) (hj : j < n1 - 1) : gridQuad n1 xs' ys' i j = turned (gridQuad n1 xs ys (n0 - 2 - i) j) := by
  have e0 : n0 - 1 - i = n0 - 2 - i + 1 := by omega
  have e1 : n0 - 1 - (i + 1) = n0 - 2 - i := by omega
  have a := h.node i (by omega) j (by omega)
  have b := h.node (i + 1) (by omega) j (by omega)
  have c := h.node (i + 1) (by omega) (j + 1) (by omega)
  have d := h.node i (by omega) (j + 1) (by omega)
  rw [e0] at a d
  rw [e1] at b c
  funext k
  fin_cases k
  · exact Prod.ext a.1 a.2
  · exact Prod.ext b.1 b.2
  · exact Prod.ext c.1 c.2
  · exact Prod.ext d.1 d.2

theorem edgeData_turned {n0 n1 : Nat} {xs ys x y xs' ys' x' y' : List ℝ} (h : AxisTurned n0 n1 xs ys x y xs' ys' x' y') {i j : Nat}
    (hi : i < n0 - 1) (hj : j < n1 - 1) : edgeData n1 x' y' i j = turnedData (edgeData n1 x y (n0 - 2 - i) j) := by
  have e0 : n0 - 1 - i = n0 - 2 - i + 1 := by omega
  have e1 : n0 - 1 - (i + 1) = n0 - 2 - i := by omega
  have c := h.second i (by omega) j (by omega)
  have d := h.second (i + 1) (by omega) j (by omega)
  rw [e0] at c
  rw [e1] at d
  funext k
  fin_cases k
  · exact h.first i (by omega) j (by omega)
  · exact h.first i (by omega) (j + 1) (by omega)
  · exact c
  · exact d

/-- **C142**, in real numbers, cells that are parallelograms: the flow does not depend on the end from which the first index of the grid is counted.  With
`C142_axes_partial` the same is true for the second.  The segments are to be clear of the tolerance in both numberings. -/
theorem C142_turned_partial (pert : Nat → Nat → Nat → ℝ) (g : Gels ℝ) (hg : GelsContract g)
    (srt : List ℝ → List ℝ) (hsrt : ∀ l, SortsTo l (srt l)) (n0 n1 : Nat) (h0 : 2 ≤ n0) (h1 : 2 ≤ n1) (hf : n0 * n1 ≤ 1073741824)
    (xs ys x y xs' ys' x' y' : List ℝ) (hx : n0 * n1 ≤ xs.length) (hy : n0 * n1 ≤ ys.length) (hx' : n0 * n1 ≤ xs'.length) (hy' : n0 * n1 ≤ ys'.length)
    (hxl : (n0 - 1) * n1 ≤ x.length) (hyl : n0 * (n1 - 1) ≤ y.length) (hxl' : (n0 - 1) * n1 ≤ x'.length) (hyl' : n0 * (n1 - 1) ≤ y'.length)
    (hex : AxisTurned n0 n1 xs ys x y xs' ys' x' y')
    (hpar : ∀ i < n0 - 1, ∀ j < n1 - 1, Parallelogram (gridQuad n1 xs ys i j))
    (n : Nat) (hn : 1 ≤ n) (us vs : List ℝ) (hu : n ≤ us.length) (hv : n ≤ vs.length)
    (d e : List ℝ) (hd : n - 1 ≤ d.length) (he : n - 1 ≤ e.length) :
    ∃ d' e', flowWith pert g srt [] n0 n1 xs ys n us vs 1 x y d = .ok d' ∧
      flowWith pert g srt [] n0 n1 xs' ys' n us vs 1 x' y' e = .ok e' ∧
      ∀ k < n - 1, ∀ a b, a = movedNode pert n us vs k → b = movedNode pert n us vs (k + 1) → MetSegment n0 n1 xs ys a b →
        (∀ i < n0 - 1, ∀ j < n1 - 1, ClearLine (gridQuad n1 xs' ys' i j) a b) → ∃ v, d'[k]? = some v ∧ e'[k]? = some v := by
  obtain ⟨d', hd', h⟩ := C79_integral_partial pert g hg srt hsrt n0 n1 h0 h1 hf xs ys hx hy n hn us vs hu hv hpar x y hxl hyl d hd
  obtain ⟨e', he', h'⟩ := C79_integral_partial pert g hg srt hsrt n0 n1 h0 h1 hf xs' ys' hx' hy' n hn us vs hu hv
    (fun i hi j hj => by rw [gridQuad_turned hex hi hj]; exact parallelogram_turned (hpar _ (by omega) j hj)) x' y' hxl' hyl' e he
  refine ⟨d', e', hd', he', fun k hk a b ea eb m hc => ⟨_, h k hk a b ea eb m.met m.clear, ?_⟩⟩
  obtain ⟨i, hi, j, hj, hm⟩ := m.met
  have hi' : n0 - 2 - i < n0 - 1 := by omega
  rw [h' k hk a b ea eb ⟨n0 - 2 - i, hi', j, hj, by
    rw [gridQuad_turned hex hi' hj, insideParams_turned, show n0 - 2 - (n0 - 2 - i) = i by omega]; exact hm⟩ hc]
  congr 1
  rw [← Finset.sum_range_reflect]
  refine Finset.sum_congr rfl fun i hi => Finset.sum_congr rfl fun j hj => ?_
  have hi := Finset.mem_range.mp hi
  have hj := Finset.mem_range.mp hj
  have hi' : n0 - 1 - 1 - i < n0 - 1 := by omega
  rw [gridQuad_turned hex hi' hj, edgeData_turned hex hi' hj, show n0 - 2 - (n0 - 1 - 1 - i) = i by omega,
    fieldIntegral_turned (hpar i hi j hj)]

/-- The diagonal of a square grid, and the same sheared, stretched and shifted by `(x, y) ↦ (2 x + y + 5, 3 y - 1)`. -/
example (g : Gels ℝ) (hg : GelsContract g) (srt : List ℝ → List ℝ) (hsrt : ∀ l, SortsTo l (srt l)) (x y : List ℝ)
    (hxl : 6 ≤ x.length) (hyl : 6 ≤ y.length) :
    ∃ d' e', flowWith noPert g srt [] 3 3 [0, 0, 0, 1, 1, 1, 2, 2, 2] [0, 1, 2, 0, 1, 2, 0, 1, 2] 2 [0, 2] [0, 2] 1 x y [7] = .ok d' ∧
      flowWith noPert g srt [] 3 3 [5, 6, 7, 7, 8, 9, 9, 10, 11] [-1, 2, 5, -1, 2, 5, -1, 2, 5] 2 [5, 11] [-1, 5] 1 x y [7] = .ok e' ∧
      ∃ v : ℝ, d'[0]? = some v ∧ e'[0]? = some v := by
  obtain ⟨d', e', h1, h2, h⟩ := C142_affine_partial ⟨2, 1, 0, 3, 5, -1⟩ (by norm_num [AffineMap2.det]) noPert noPert g hg srt hsrt 3 3 (by norm_num)
    (by norm_num) (by norm_num) [0, 0, 0, 1, 1, 1, 2, 2, 2] [0, 1, 2, 0, 1, 2, 0, 1, 2] [5, 6, 7, 7, 8, 9, 9, 10, 11] [-1, 2, 5, -1, 2, 5, -1, 2, 5]
    (by simp) (by simp) (by simp) (by simp)
    (by intro k hk; norm_num at hk; interval_cases k <;> simp [AffineMap2.app] <;> norm_num)
    (fun i hi j hj => tensor_parallelogram square_tensor hi hj) 2 (by norm_num) [0, 2] [0, 2] [5, 11] [-1, 5] (by simp) (by simp) (by simp)
    (by simp) (by intro k hk; interval_cases k <;> simp [movedNode, noPert, AffineMap2.app] <;> norm_num) x y hxl hyl [7] [7] (by simp) (by simp)
  refine ⟨d', e', h1, h2, h 0 (by norm_num) ?_⟩
  simpa [movedNode, noPert] using square_met 0 2 (by decide)

/-- The same diagonal with the axes exchanged. -/
example (g : Gels ℝ) (hg : GelsContract g) (srt : List ℝ → List ℝ) (hsrt : ∀ l, SortsTo l (srt l)) (a b c d e f a' b' c' d' e' f' : ℝ) :
    ∃ r r', flowWith noPert g srt [] 3 3 [0, 0, 0, 1, 1, 1, 2, 2, 2] [0, 1, 2, 0, 1, 2, 0, 1, 2] 2 [0, 2] [0, 2] 1 [a, b, c, d, e, f]
        [a', b', c', d', e', f'] [7] = .ok r ∧
      flowWith noPert g srt [] 3 3 [0, 1, 2, 0, 1, 2, 0, 1, 2] [0, 0, 0, 1, 1, 1, 2, 2, 2] 2 [0, 2] [0, 2] 1 [a', c', e', b', d', f']
        [a, d, b, e, c, f] [7] = .ok r' ∧
      ∃ v : ℝ, r[0]? = some v ∧ r'[0]? = some v := by
  obtain ⟨r, r', h1, h2, h⟩ := C142_axes_partial noPert g hg srt hsrt 3 3 (by norm_num)
    (by norm_num) (by norm_num) [0, 0, 0, 1, 1, 1, 2, 2, 2] [0, 1, 2, 0, 1, 2, 0, 1, 2] [a, b, c, d, e, f] [a', b', c', d', e', f']
    [0, 1, 2, 0, 1, 2, 0, 1, 2] [0, 0, 0, 1, 1, 1, 2, 2, 2] [a', c', e', b', d', f'] [a, d, b, e, c, f]
    (by simp) (by simp) (by simp) (by simp) (by simp) (by simp) (by simp) (by simp)
    ⟨by intro i hi j hj; interval_cases i <;> interval_cases j <;> simp [nodePlace],
     by intro i hi j hj; norm_num at hj; interval_cases i <;> interval_cases j <;> simp [xEdge, yEdge],
     by intro i hi j hj; norm_num at hi; interval_cases i <;> interval_cases j <;> simp [xEdge, yEdge]⟩
    (fun i hi j hj => tensor_parallelogram square_tensor hi hj) 2 (by norm_num) [0, 2] [0, 2] (by simp) (by simp) [7] [7] (by simp) (by simp)
  refine ⟨r, r', h1, h2, h 0 (by norm_num) (0, 0) (2, 2) (by simp [movedNode, noPert]) (by simp [movedNode, noPert])
    (by simpa using square_met 0 2 (by decide)) ?_⟩
  have := met_image (φ := ⟨0, 1, 1, 0, 0, 0⟩) (by norm_num [AffineMap2.det]) (xs' := [0, 1, 2, 0, 1, 2, 0, 1, 2]) (ys' := [0, 0, 0, 1, 1, 1, 2, 2, 2])
    (by intro k hk; norm_num at hk; interval_cases k <;> simp [AffineMap2.app]) (square_met 0 2 (by decide))
  simpa [AffineMap2.app] using this.clear

/-- The same diagonal with the first axis turned round. -/
example (g : Gels ℝ) (hg : GelsContract g) (srt : List ℝ → List ℝ) (hsrt : ∀ l, SortsTo l (srt l)) (a b c d e f a' b' c' d' e' f' : ℝ) :
    ∃ r r', flowWith noPert g srt [] 3 3 [0, 0, 0, 1, 1, 1, 2, 2, 2] [0, 1, 2, 0, 1, 2, 0, 1, 2] 2 [0, 2] [0, 2] 1 [a, b, c, d, e, f]
        [a', b', c', d', e', f'] [7] = .ok r ∧
      flowWith noPert g srt [] 3 3 [2, 2, 2, 1, 1, 1, 0, 0, 0] [0, 1, 2, 0, 1, 2, 0, 1, 2] 2 [0, 2] [0, 2] 1 [-d, -e, -f, -a, -b, -c]
        [e', f', c', d', a', b'] [7] = .ok r' ∧
      ∃ v : ℝ, r[0]? = some v ∧ r'[0]? = some v := by
  obtain ⟨r, r', h1, h2, h⟩ := C142_turned_partial noPert g hg srt hsrt 3 3 (by norm_num)
    (by norm_num) (by norm_num) [0, 0, 0, 1, 1, 1, 2, 2, 2] [0, 1, 2, 0, 1, 2, 0, 1, 2] [a, b, c, d, e, f] [a', b', c', d', e', f']
    [2, 2, 2, 1, 1, 1, 0, 0, 0] [0, 1, 2, 0, 1, 2, 0, 1, 2] [-d, -e, -f, -a, -b, -c] [e', f', c', d', a', b']
    (by simp) (by simp) (by simp) (by simp) (by simp) (by simp) (by simp) (by simp)
    ⟨by intro i hi j hj; interval_cases i <;> interval_cases j <;> simp [nodePlace],
     by intro i hi j hj; norm_num at hi; interval_cases i <;> interval_cases j <;> simp [xEdge],
     by intro i hi j hj; norm_num at hj; interval_cases i <;> interval_cases j <;> simp [yEdge]⟩
    (fun i hi j hj => tensor_parallelogram square_tensor hi hj) 2 (by norm_num) [0, 2] [0, 2] (by simp) (by simp) [7] [7] (by simp) (by simp)
  refine ⟨r, r', h1, h2, h 0 (by norm_num) (0, 0) (2, 2) (by simp [movedNode, noPert]) (by simp [movedNode, noPert])
    (by simpa using square_met 0 2 (by decide)) ?_⟩
  intro i hi j hj
  have hi : i < 2 := hi
  have hj : j < 2 := hj
  have hq : gridQuad 3 ([2, 2, 2, 1, 1, 1, 0, 0, 0] : List ℝ) [0, 1, 2, 0, 1, 2, 0, 1, 2] i j = zquad fun c => zcell (1 - i) j (1 - c) := by
    funext c
    interval_cases i <;> interval_cases j <;> fin_cases c <;> simp [gridQuad, nodePlace, cellNode, zquad, zcell]
  have hc : ZConvex (fun c => zcell (1 - i) j (1 - c)) ∧ ZSmall (fun c => zcell (1 - i) j (1 - c)) := by
    interval_cases i <;> interval_cases j <;> exact ⟨by decide, by decide⟩
  rw [hq]
  have := clearLine_int hc.1 hc.2 (0, 0) (2, 2) (by constructor <;> norm_num) (by constructor <;> norm_num)
    (Or.inl (by interval_cases i <;> interval_cases j <;> decide))
  simpa using this

/-- **C142 is false near the tolerance**, with the perturbation the code makes.  The first run is that of `C141_refuted`; the second has all coordinates in
a unit 100 times larger.  The tolerance of the intersector goes with the size of the cell, that of the search is an absolute length: in the first the
node 1e-12 outside of the cell is not found, in the second (1e-14) it is, and the flows of the second segment are nearly 0 and nearly 1/2. -/
theorem C142_refuted :
    ∃ u v u' v' : ℚ, flowWith pert3 cramerGels sortReal [] 2 2 [100, 100, 200, 200] [0, 100, 0, 100] 3 [150, 100 - 1 / 10 ^ 12, 150]
      [60, 50, 50] 1 [1, 1] [0, 0] [7, 7] = .ok [u, v] ∧
      flowWith pert3 cramerGels sortReal [] 2 2 [100 / 100, 100 / 100, 200 / 100, 200 / 100] [0, 100 / 100, 0, 100 / 100] 3
        [150 / 100, (100 - 1 / 10 ^ 12) / 100, 150 / 100] [60 / 100, 50 / 100, 50 / 100] 1 [1, 1] [0, 0] [7, 7] = .ok [u', v'] ∧
      |v| < 1 / 100 ∧ 49 / 100 < v' := by
  have h : (flowWith pert3 cramerGels sortReal [] 2 2 [100, 100, 200, 200] [0, 100, 0, 100] 3 [150, 100 - 1 / 10 ^ 12, 150]
      [60, 50, 50] 1 [1, 1] [0, 0] [7, 7] >>= fun d =>
      flowWith pert3 cramerGels sortReal [] 2 2 [100 / 100, 100 / 100, 200 / 100, 200 / 100] [0, 100 / 100, 0, 100 / 100] 3
        [150 / 100, (100 - 1 / 10 ^ 12) / 100, 150 / 100] [60 / 100, 50 / 100, 50 / 100] 1 [1, 1] [0, 0] [7, 7] >>= fun d' =>
      .ok (d.length, d'.length, decide (d.getD 1 (7 : ℚ) < 1 / 100), decide (-(1 / 100) < d.getD 1 (7 : ℚ)),
        decide (49 / 100 < d'.getD 1 (0 : ℚ)))) = .ok (2, 2, true, true, true) := by decide +kernel
  obtain ⟨d, e, h⟩ := bind_ok_inv h
  obtain ⟨d', e', h⟩ := bind_ok_inv h
  simp only [Except.ok.injEq, Prod.mk.injEq, decide_eq_true_eq] at h
  obtain ⟨hl, hl', h1, h2, h3⟩ := h
  obtain ⟨u, v, rfl⟩ : ∃ u v, d = [u, v] := by
    match d, hl with
    | [u, v], _ => exact ⟨u, v, rfl⟩
  obtain ⟨u', v', rfl⟩ : ∃ u v, d' = [u, v] := by
    match d', hl' with
    | [u, v], _ => exact ⟨u, v, rfl⟩
  exact ⟨u, v, u', v', e, e', abs_lt.mpr ⟨h2, h1⟩, h3⟩

end Sg.Props
