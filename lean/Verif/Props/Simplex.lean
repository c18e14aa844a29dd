import Verif.Model.Simplex
import Mathlib.Data.Finset.Basic
import Mathlib.Data.Finset.Powerset
import Mathlib.Tactic.Ring
import Mathlib.Data.List.Perm.Basic
/-
Properties C08-C09 of the simplices.
-/
namespace Sg.Props
open Sg Sg.Simplex

/-- **C08 (points)** `getPoint i` of a line, triangle or tetrahedron returns the three numbers that
were at address `p_i` when the object was created.  The object does not refer to the caller's
memory, so the result cannot depend on what is stored there later. -/
theorem C08_simplex_points {F : Type} (mem : Nat → F) (p : Nat → Nat) :
    (∀ i : Nat, i < 2 → (lineNew mem (p 0) (p 1)).getPoint i = .ok [mem (p i), mem (p i + 1), mem (p i + 2)]) ∧
    (∀ i : Nat, i < 3 → (triangleNew mem (p 0) (p 1) (p 2)).getPoint i =
      .ok [mem (p i), mem (p i + 1), mem (p i + 2)]) ∧
    (∀ i : Nat, i < 4 → (tetrahedronNew mem (p 0) (p 1) (p 2) (p 3)).getPoint i =
      .ok [mem (p i), mem (p i + 1), mem (p i + 2)]) := by
  refine ⟨?_, ?_, ?_⟩
  · intro i hi
    match i, hi with
    | 0, _ => rfl
    | 1, _ => rfl
  · intro i hi
    match i, hi with
    | 0, _ => rfl
    | 1, _ => rfl
    | 2, _ => rfl
  · intro i hi
    match i, hi with
    | 0, _ => rfl
    | 1, _ => rfl
    | 2, _ => rfl
    | 3, _ => rfl

/-- **C08 (safe accesses)** exactly the indices `0 ≤ i < number` may be read; anything else is an
out-of-bounds access. -/
theorem C08_simplex_bounds {F : Type} (o : Obj F) (i : Int) :
    ((∃ v, o.getPoint i = .ok v) ↔ 0 ≤ i ∧ i < o.getNumberOfPoints) ∧
    ((∃ v, o.getEdge i = .ok v) ↔ 0 ≤ i ∧ i < o.getNumberOfEdges) ∧
    ((∃ v, o.getFace i = .ok v) ↔ 0 ≤ i ∧ i < o.getNumberOfFaces) := by
  have key : ∀ {α : Type} (l : List α), (∃ v, at' l i = .ok v) ↔ 0 ≤ i ∧ i < l.length := by
    intro α l
    unfold at' vget
    by_cases h : i < 0
    · simp only [h, if_true]
      constructor
      · rintro ⟨v, hv⟩; cases hv
      · omega
    · simp only [h, if_false]
      by_cases hl : i.toNat < l.length
      · rw [List.getElem?_eq_getElem hl]
        constructor
        · intro _; omega
        · intro _; exact ⟨_, rfl⟩
      · rw [List.getElem?_eq_none (by omega)]
        constructor
        · rintro ⟨v, hv⟩; cases hv
        · omega
  exact ⟨key _, key _, key _⟩

/-- **C08 (edges)** every unordered pair of vertices of the triangle and of the tetrahedron is listed
exactly once, and the triangle's edges form the closed loop 0 → 1 → 2 → 0. -/
theorem C08_simplex_edges {F : Type} (mem : Nat → F) (p0 p1 p2 p3 : Nat) :
    ((triangleNew mem p0 p1 p2).edges.map List.toFinset).Perm [{0, 1}, {0, 2}, {1, 2}] ∧
    ((tetrahedronNew mem p0 p1 p2 p3).edges.map List.toFinset).Perm
      [{0, 1}, {0, 2}, {0, 3}, {1, 2}, {1, 3}, {2, 3}] ∧
    (∀ k : Nat, k < 3 → ∃ a b c, (triangleNew mem p0 p1 p2).getEdge k = .ok [a, b] ∧
      (triangleNew mem p0 p1 p2).getEdge ((k + 1) % 3 : Nat) = .ok [b, c]) := by
  refine ⟨?_, ?_, ?_⟩
  · simp only [triangleNew]; decide
  · simp only [tetrahedronNew]; decide
  · intro k hk
    match k, hk with
    | 0, _ => exact ⟨0, 1, 2, rfl, rfl⟩
    | 1, _ => exact ⟨1, 2, 0, rfl, rfl⟩
    | 2, _ => exact ⟨2, 0, 1, rfl, rfl⟩

/-- **C08** Directions of the edges of the tetrahedron: the first three go round the first three vertices, the others go from these
to the fourth. -/
theorem C08_tetra_directions {F : Type} (mem : Nat → F) (p0 p1 p2 p3 : Nat) (k : Nat) (hk : k < 3) :
    (tetrahedronNew mem p0 p1 p2 p3).getEdge k = .ok [k, (k + 1) % 3] ∧
    (tetrahedronNew mem p0 p1 p2 p3).getEdge ((k + 3 : Nat) : Int) = .ok [k, 3] := by
  match k, hk with
  | 0, _ => exact ⟨rfl, rfl⟩
  | 1, _ => exact ⟨rfl, rfl⟩
  | 2, _ => exact ⟨rfl, rfl⟩

/-! ### C09: faces of the tetrahedron -/

/-- Directed edges of a face `[a, b, c]`: a → b → c → a. -/
def faceEdges : List Nat → List (Nat × Nat)
  | [a, b, c] => [(a, b), (b, c), (c, a)]
  | _ => []

/-- **C09 (partial)** every vertex triple is a face exactly once, and every vertex pair belongs to
exactly two faces.  Missing: the faces are not consistently oriented, see `C09_tetra_faces_refuted`. -/
theorem C09_tetra_faces_partial {F : Type} (mem : Nat → F) (p0 p1 p2 p3 : Nat) :
    ((tetrahedronNew mem p0 p1 p2 p3).faces.map List.toFinset).Perm
      [{0, 1, 2}, {0, 1, 3}, {0, 2, 3}, {1, 2, 3}] ∧
    ∀ a < 4, ∀ b < 4, a ≠ b →
      (tetrahedronNew mem p0 p1 p2 p3).faces.countP
        (fun f => decide (a ∈ f ∧ b ∈ f)) = 2 := by
  refine ⟨?_, ?_⟩
  · simp only [tetrahedronNew]; decide
  · simp only [tetrahedronNew]; decide

/-- Twice the oriented area vector of the triangle with vertices `a b c`. -/
def areaVec {R : Type} [CommRing R] (a b c : R × R × R) : R × R × R :=
  let u := (b.1 - a.1, b.2.1 - a.2.1, b.2.2 - a.2.2)
  let v := (c.1 - a.1, c.2.1 - a.2.1, c.2.2 - a.2.2)
  (u.2.1 * v.2.2 - u.2.2 * v.2.1, u.2.2 * v.1 - u.1 * v.2.2, u.1 * v.2.1 - u.2.1 * v.1)

/-- Sum of the oriented area vectors over a list of faces, for vertex positions `x`. -/
def totalArea {R : Type} [CommRing R] (x : Nat → R × R × R) : List (List Nat) → R × R × R
  | [] => 0
  | f :: fs => areaVec (x (f.getD 0 0)) (x (f.getD 1 0)) (x (f.getD 2 0)) + totalArea x fs

/-- **C09 (refuted)** the faces of the tetrahedron are not a closed oriented surface: two faces run
through the common edge 1-2 in the same direction, and the area vectors of the unit tetrahedron do not
sum to zero. -/
theorem C09_tetra_faces_refuted {F : Type} (mem : Nat → F) (p0 p1 p2 p3 : Nat) :
    (tetrahedronNew mem p0 p1 p2 p3).faces.countP (fun f => decide ((1, 2) ∈ faceEdges f)) = 2 ∧
    ∃ x : Nat → ℤ × ℤ × ℤ, totalArea x (tetrahedronNew mem p0 p1 p2 p3).faces ≠ 0 := by
  refine ⟨?_, fun i => if i = 1 then (1, 0, 0) else if i = 2 then (0, 1, 0) else if i = 3 then (0, 0, 1) else 0, ?_⟩
  · simp only [tetrahedronNew]; decide
  · simp only [tetrahedronNew]; decide

/-- **C09 (what would hold)** with the third face `[3,1,2]` listed in the opposite direction the area
vectors sum to zero for every tetrahedron: the third face is the only one at fault. -/
theorem C09_tetra_faces_repaired {F R : Type} [CommRing R] (mem : Nat → F) (p0 p1 p2 p3 : Nat)
    (x : Nat → R × R × R) :
    totalArea x ((tetrahedronNew mem p0 p1 p2 p3).faces.map
      fun f => if f = [3, 1, 2] then f.reverse else f) = 0 := by
  simp only [tetrahedronNew, List.map_cons, List.map_nil]
  simp [totalArea, areaVec, Prod.ext_iff]
  refine ⟨by ring, by ring, by ring⟩

end Sg.Props
