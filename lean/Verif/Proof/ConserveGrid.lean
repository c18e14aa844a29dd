import Verif.Model.ConserveInterp
import Verif.Proof.Cxx
import Mathlib.Tactic.Ring
import Mathlib.Tactic.FinCases
import Mathlib.Data.Fintype.Basic
import Mathlib.Tactic.Linarith
/- Grids: the stored coordinates and the nodes of a cell. -/
namespace Sg.Conserve
open Sg.LinearSolve Sg.Triangulate Sg.QuadIntersect

section
set_option linter.unusedSectionVars false
variable {F : Type} [Zero F] [One F] [Add F] [Sub F] [Mul F] [Div F] [Neg F] [LT F] [DecidableLT F] [LE F] [DecidableLE F]
  [NatCast F]

/-- The node `k` of the caller's arrays. -/
def ptAt (x y : List F) (k : Nat) : Pt F := (x.getD k 0, y.getD k 0)

theorem getD_of_lt {l : List F} {k : Nat} (h : k < l.length) : l[k]? = some (l.getD k 0) := by
  rw [List.getD_eq_getElem?_getD, List.getElem?_eq_getElem h]; rfl

theorem makeGrid_ok (dims : Nat × Nat) (x y : List F) (hx : dims.1 * dims.2 ≤ x.length) (hy : dims.1 * dims.2 ≤ y.length) :
    ∃ gr, makeGrid dims x y = .ok gr ∧ gr.nodeDims = dims ∧ gr.coords.length = 2 * (dims.1 * dims.2) ∧
      ∀ k < dims.1 * dims.2, gr.nodeCoord k = .ok (ptAt x y k) := by
  set n := dims.1 * dims.2 with hn
  have hn1 : 1 * dims.1 * dims.2 = n := by rw [hn]; ring
  unfold makeGrid
  simp only [hn1]
  obtain ⟨v1, e1, l1, p1⟩ := forN_inv (fun i v => v.length = 2 * n ∧ ∀ k < i, v[k * 2]? = some (x.getD k 0))
    (fun i v => do
      let c ← vget x i
      vset v (i * 2 + 0) c) n (List.replicate (2 * n) (0 : F)) ⟨by simp, by intro k hk; omega⟩ (by
      rintro i v hi ⟨hl, hp⟩
      have h1 : vget x i = .ok (x.getD i 0) := vget_eq_ok.mpr (getD_of_lt (by omega))
      refine ⟨v.set (i * 2 + 0) (x.getD i 0), ?_, ?_, ?_⟩
      · simp only [h1, bind, Except.bind]
        exact vset_ok (by omega)
      · simpa using hl
      · intro k hk
        rcases Nat.lt_succ_iff_lt_or_eq.mp hk with h | rfl
        · rw [List.getElem?_set_ne (by omega)]; exact hp k h
        · rw [show k * 2 + 0 = k * 2 from rfl, List.getElem?_set_self (by omega)])
  obtain ⟨v2, e2, l2, p2, q2⟩ := forN_inv (fun i v => v.length = 2 * n ∧ (∀ k < n, v[k * 2]? = some (x.getD k 0)) ∧
      ∀ k < i, v[k * 2 + 1]? = some (y.getD k 0))
    (fun i v => do
      let c ← vget y i
      vset v (i * 2 + 1) c) n v1 ⟨l1, p1, by intro k hk; omega⟩ (by
      rintro i v hi ⟨hl, hp, hq⟩
      have h1 : vget y i = .ok (y.getD i 0) := vget_eq_ok.mpr (getD_of_lt (by omega))
      refine ⟨v.set (i * 2 + 1) (y.getD i 0), ?_, ?_, ?_, ?_⟩
      · simp only [h1, bind, Except.bind]
        exact vset_ok (by omega)
      · simpa using hl
      · intro k hk
        rw [List.getElem?_set_ne (by omega)]; exact hp k hk
      · intro k hk
        rcases Nat.lt_succ_iff_lt_or_eq.mp hk with h | rfl
        · rw [List.getElem?_set_ne (by omega)]; exact hq k h
        · rw [List.getElem?_set_self (by omega)])
  refine ⟨{ nodeDims := dims, coords := v2 }, ?_, rfl, l2, ?_⟩
  · simp only [bind, Except.bind, pure, Except.pure] at e1 e2 ⊢
    rw [e1]
    simp only
    rw [e2]
  · intro k hk
    have a : vget v2 (k * 2 + 0) = .ok (x.getD k 0) := vget_eq_ok.mpr (p2 k hk)
    have b : vget v2 (k * 2 + 1) = .ok (y.getD k 0) := vget_eq_ok.mpr (q2 k hk)
    simp only [Grid.nodeCoord, a, b, bind, Except.bind, pure, Except.pure, ptAt]

/-- A grid whose coordinates can be read: `p k` are the coordinates of node `k`. -/
structure Grid.Has (gr : Grid F) (p : Nat → Pt F) : Prop where
  dims : 1 ≤ gr.nodeDims.1 ∧ 1 ≤ gr.nodeDims.2
  read : ∀ k < gr.nodeDims.1 * gr.nodeDims.2, gr.nodeCoord k = .ok (p k)

/-- Node `i` of cell `indx`. -/
def Grid.cellNode (gr : Grid F) (indx : Nat) (i : Fin 4) : Nat :=
  gr.nodeDims.2 * (indx / (gr.nodeDims.2 - 1) + (offset i).1) + (indx % (gr.nodeDims.2 - 1) + (offset i).2)

/-- The corners of cell `indx`. -/
def Grid.cellQuad (gr : Grid F) (p : Nat → Pt F) (indx : Nat) : Quad F := fun i => p (gr.cellNode indx i)

theorem Grid.numCells_eq (gr : Grid F) : gr.numCells = (gr.nodeDims.1 - 1) * (gr.nodeDims.2 - 1) := by
  simp [Grid.numCells, Grid.cellDims]

theorem offset_le (i : Fin 4) : (offset i).1 ≤ 1 ∧ (offset i).2 ≤ 1 := by
  fin_cases i <;> exact ⟨by decide, by decide⟩

theorem Grid.cell_index (gr : Grid F) {indx : Nat} (h : indx < gr.numCells) :
    1 ≤ gr.nodeDims.2 - 1 ∧ indx / (gr.nodeDims.2 - 1) < gr.nodeDims.1 - 1 ∧ indx % (gr.nodeDims.2 - 1) < gr.nodeDims.2 - 1 := by
  rw [Grid.numCells_eq] at h
  have h2 : 1 ≤ gr.nodeDims.2 - 1 := by
    rcases Nat.eq_zero_or_pos (gr.nodeDims.2 - 1) with h0 | h0
    · rw [h0, Nat.mul_zero] at h; omega
    · exact h0
  exact ⟨h2, (Nat.div_lt_iff_lt_mul h2).mpr h, Nat.mod_lt _ h2⟩

theorem Grid.cellNode_lt (gr : Grid F) {indx : Nat} (h : indx < gr.numCells) (i : Fin 4) :
    gr.cellNode indx i < gr.nodeDims.1 * gr.nodeDims.2 := by
  obtain ⟨h1, h2, h3⟩ := gr.cell_index h
  obtain ⟨o1, o2⟩ := offset_le i
  unfold Grid.cellNode
  generalize indx / (gr.nodeDims.2 - 1) = q at *
  generalize indx % (gr.nodeDims.2 - 1) = r at *
  have a : q + (offset i).1 + 1 ≤ gr.nodeDims.1 := by omega
  have b : r + (offset i).2 < gr.nodeDims.2 := by omega
  calc _ < gr.nodeDims.2 * (q + (offset i).1) + gr.nodeDims.2 := by omega
    _ = gr.nodeDims.2 * (q + (offset i).1 + 1) := by ring
    _ ≤ gr.nodeDims.2 * gr.nodeDims.1 := Nat.mul_le_mul_left _ a
    _ = _ := Nat.mul_comm _ _

theorem Grid.quadCoord_ok (gr : Grid F) (p : Nat → Pt F) (hg : gr.Has p) {indx : Nat} (h : indx < gr.numCells) :
    gr.quadCoord indx = .ok (gr.cellNode indx, gr.cellQuad p indx) := by
  obtain ⟨h1, h2, h3⟩ := gr.cell_index h
  have du : ∀ a b, b ≠ 0 → udiv a b = .ok (a / b) := fun a b h => by unfold udiv; rw [if_neg h]
  have mu : ∀ a b, b ≠ 0 → umod a b = .ok (a % b) := fun a b h => by unfold umod; rw [if_neg h]
  have z2 : gr.nodeDims.2 - 1 ≠ 0 := by omega
  have z1 : gr.nodeDims.1 - 1 ≠ 0 := by intro h0; rw [h0] at h2; exact absurd h2 (Nat.not_lt_zero _)
  have e1 : udiv indx gr.cellDimProd.1 = .ok (indx / (gr.nodeDims.2 - 1)) := by
    rw [show gr.cellDimProd.1 = gr.nodeDims.2 - 1 from Nat.one_mul _]; exact du _ _ z2
  have e2 : umod (indx / (gr.nodeDims.2 - 1)) gr.cellDims.1 = .ok (indx / (gr.nodeDims.2 - 1)) := by
    rw [show gr.cellDims.1 = gr.nodeDims.1 - 1 from rfl, mu _ _ z1, Nat.mod_eq_of_lt h2]
  have e3 : udiv indx gr.cellDimProd.2 = .ok indx := by
    rw [show gr.cellDimProd.2 = 1 from rfl, du _ _ (by omega), Nat.div_one]
  have e4 : umod indx gr.cellDims.2 = .ok (indx % (gr.nodeDims.2 - 1)) := mu _ _ z2
  have e5 : ∀ i, 0 + gr.nodeDimProd.1 * (indx / (gr.nodeDims.2 - 1) + (offset i).1) +
      gr.nodeDimProd.2 * (indx % (gr.nodeDims.2 - 1) + (offset i).2) = gr.cellNode indx i := by
    intro i; simp [Grid.nodeDimProd, Grid.cellNode]
  unfold Grid.quadCoord
  simp only [e1, e2, e3, e4, e5, bind, Except.bind, pure, Except.pure, hg.read _ (gr.cellNode_lt h _)]
  congr 2
  funext i
  fin_cases i <;> rfl

end
end Sg.Conserve
