import Verif.Spec.Flows
/-
Specification side of the properties of flow interpolation: structured grids of `n0` times `n1` nodes, the second index
varying fastest, and data on their edges.  Cell `(i, j)` has the nodes `(i, j)`, `(i+1, j)`, `(i+1, j+1)` and `(i, j+1)`.
-/
namespace Sg.Spec

/-- The four nodes of cell `(i, j)`, going round. -/
def cellNode (i j : Nat) (c : Fin 4) : Nat × Nat :=
  match c with | 0 => (i, j) | 1 => (i + 1, j) | 2 => (i + 1, j + 1) | 3 => (i, j + 1)

/-- The place of a node in an array over the nodes. -/
def nodePlace (n1 : Nat) (m : Nat × Nat) : Nat := m.1 * n1 + m.2

/-- The place of the edge from node `(i, j)` to node `(i+1, j)` in the array of these edges. -/
def xEdge (n1 i j : Nat) : Nat := i * n1 + j

/-- The place of the edge from node `(i, j)` to node `(i, j+1)` in the array of these edges. -/
def yEdge (n1 i j : Nat) : Nat := i * (n1 - 1) + j

section
variable {K : Type} [Field K]

/-- The flow through cell `(i, j)` with weights `w`: its four edges times their weights. -/
def cellFlow (n1 : Nat) (x y : List K) (i j : Nat) (w : Fin 4 → K) : K :=
  w 0 * x.getD (xEdge n1 i j) 0 + w 1 * x.getD (xEdge n1 i (j + 1)) 0 + w 2 * y.getD (yEdge n1 i j) 0 +
    w 3 * y.getD (yEdge n1 (i + 1) j) 0

/-- The edge data are the differences of the nodal values `phi`. -/
structure PotentialData (n0 n1 : Nat) (phi : Nat → Nat → K) (x y : List K) : Prop where
  lenx : (n0 - 1) * n1 ≤ x.length
  leny : n0 * (n1 - 1) ≤ y.length
  xs : ∀ i j, i < n0 - 1 → j < n1 → x.getD (xEdge n1 i j) 0 = phi (i + 1) j - phi i j
  ys : ∀ i j, i < n0 → j < n1 - 1 → y.getD (yEdge n1 i j) 0 = phi i (j + 1) - phi i j

/-- The values of `phi` at the nodes of cell `(i, j)`. -/
def cellPhi (phi : Nat → Nat → K) (i j : Nat) (c : Fin 4) : K := phi (cellNode i j c).1 (cellNode i j c).2

/-- The corners of cell `(i, j)` of the grid with coordinates `xs` and `ys`. -/
def gridQuad (n1 : Nat) (xs ys : List K) (i j : Nat) (c : Fin 4) : K × K :=
  (xs.getD (nodePlace n1 (cellNode i j c)) 0, ys.getD (nodePlace n1 (cellNode i j c)) 0)

/-- Node `k` of a line of `n` nodes, each coordinate being moved by `pert`. -/
def movedNode (pert : Nat → Nat → Nat → K) (n : Nat) (us vs : List K) (k : Nat) : K × K :=
  (us.getD k 0 + pert n 0 k, vs.getD k 0 + pert n 1 k)

end
end Sg.Spec
