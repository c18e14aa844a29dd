import Verif.Spec.Line
import Verif.Spec.FlowGrid
import Mathlib.MeasureTheory.Integral.IntervalIntegral.Basic
/-
Specification side: the field inside a parallelogram given by the numbers on its four edges, and its integral along the part of a
segment inside.
-/
namespace Sg.Spec

/-- The coordinates of a displacement along the edges from node 0 to node 1 and from node 0 to node 3. -/
noncomputable def cellVector (q : Fin 4 → ℝ × ℝ) (w : ℝ × ℝ) : ℝ × ℝ :=
  let e0 := q 1 - q 0
  let e1 := q 3 - q 0
  ((w.1 * e1.2 - w.2 * e1.1) / (e0.1 * e1.2 - e0.2 * e1.1), (e0.1 * w.2 - e0.2 * w.1) / (e0.1 * e1.2 - e0.2 * e1.1))

/-- The component, along the displacement `w`, at the point `p`, of the field that has the numbers `E` on the edges: along the first
axis the field goes linearly from `E 0` (edge from node 0 to node 1) to `E 1` (edge from node 3 to node 2), along the second from
`E 2` (node 0 to node 3) to `E 3` (node 1 to node 2). -/
noncomputable def edgeField (q : Fin 4 → ℝ × ℝ) (E : Fin 4 → ℝ) (p w : ℝ × ℝ) : ℝ :=
  let ξ := cellVector q (p - q 0)
  let ω := cellVector q w
  ((1 - ξ.2) * E 0 + ξ.2 * E 1) * ω.1 + ((1 - ξ.1) * E 2 + ξ.1 * E 3) * ω.2

/-- The integral of the field along the part of the segment from `a` to `b` inside the parallelogram. -/
noncomputable def fieldIntegral (q : Fin 4 → ℝ × ℝ) (E : Fin 4 → ℝ) (a b : ℝ × ℝ) : ℝ :=
  ∫ t in insideParams q a b, edgeField q E (a + t • (b - a)) (b - a)

/-- The numbers on the edges of cell `(i, j)`: from node `(i, j)` to `(i+1, j)`, from `(i, j+1)` to `(i+1, j+1)`, from `(i, j)` to
`(i, j+1)` and from `(i+1, j)` to `(i+1, j+1)`. -/
def edgeData (n1 : Nat) (x y : List ℝ) (i j : Nat) (e : Fin 4) : ℝ :=
  match e with
  | 0 => x.getD (xEdge n1 i j) 0
  | 1 => x.getD (xEdge n1 i (j + 1)) 0
  | 2 => y.getD (yEdge n1 i j) 0
  | 3 => y.getD (yEdge n1 (i + 1) j) 0

end Sg.Spec
