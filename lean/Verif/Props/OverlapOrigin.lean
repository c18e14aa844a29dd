import Verif.Proof.NodeShift
import Verif.Proof.Shift
import Verif.Props.FindOverlap
/-
Property C149: the origin of the coordinates and the candidate cells of a polygon.  `K` is an ordered field with a floor; `g` is a linear algebra library that leaves the
sizes of its arrays alone; nothing is assumed about what it computes.
-/
namespace Sg.Props
open Sg Sg.FindPoint Sg.LinearSolve Sg.Spec Sg.NodeInterp Sg.FindOverlap Sg.Shift

set_option linter.unusedSectionVars false

/-- The call with the polygon moved by `v`. -/
def movedPolygon {F : Type} [Add F] (v : Fin 2 → F) : OverlapCall F → OverlapCall F
  | .setPolygon n c => .setPolygon n fun k => c k + if k % 2 = 0 then v 0 else v 1
  | .find => .find

section exact
variable {K : Type} [Field K] [LinearOrder K] [IsStrictOrderedRing K] [FloorRing K] [FOps K] [FOpsLaws K]

theorem start_inGrid3 (dims : Fin 2 → Nat) (hd : 2 ≤ dims 0) (hd1 : 3 ≤ dims 1) : InGrid dims (FindOverlap.startIndices dims : Fin 2 → K) := by
  have h0 : (2 : K) ≤ (dims 0 : K) := by exact_mod_cast hd
  have h1 : (3 : K) ≤ (dims 1 : K) := by exact_mod_cast hd1
  intro i
  unfold FindOverlap.startIndices
  fin_cases i
  · simp only [Fin.zero_eta, if_true]
    constructor
    · positivity
    · rw [div_le_iff₀ (by norm_num)]
      push_cast
      nlinarith
  · simp only [Fin.mk_one, one_ne_zero, if_false]
    constructor
    · positivity
    · rw [div_le_iff₀ (by norm_num)]
      push_cast
      nlinarith

/-- Corresponding objects: grid and polygon of the second are moved by `v`. -/
structure MovedOv (dims : Fin 2 → Nat) (per : Fin 2 → Int) (coords : Fin 2 → Nat → K) (v : Fin 2 → K) (o o' : Overlap K) : Prop where
  set : OvSet dims per coords o
  finder : Moved v o.finder o'.finder
  nodes : o'.srcNodeDims = o.srcNodeDims
  prod : o'.srcCellProdDims = o.srcCellProdDims
  eps : o'.eps = o.eps
  gridSet : o'.gridSet = o.gridSet
  polySet : o'.polySet = o.polySet
  num : o'.numPolyPoints = o.numPolyPoints
  cells : o'.srcCellFlatInds = o.srcCellFlatInds
  poly : o.polySet = true → ∃ pc : Nat → K, o.polyPoints = (List.range (2 * o.numPolyPoints)).map pc ∧
    o'.polyPoints = (List.range (2 * o.numPolyPoints)).map fun k => pc k + if k % 2 = 0 then v 0 else v 1

/-- Corresponding states of the loop over the vertices. -/
structure MovedState (dims : Fin 2 → Nat) (per : Fin 2 → Int) (coords : Fin 2 → Nat → K) (v : Fin 2 → K) (a b : Finder K 2 × Corners K) : Prop where
  ready : Ready a.1
  grid : SameGrid (ovFinder dims per coords) a.1
  finder : Moved v a.1 b.1
  corners : b.2 = a.2

theorem point_mv (g : Gels K) (hg : KeepsSizes g) (dims : Fin 2 → Nat) (hd : ∀ i, 2 ≤ dims i) (hd1 : 3 ≤ dims 1)
    (hp : dims 0 * dims 1 ≤ 2147483647) (per : Fin 2 → Int) (coords : Fin 2 → Nat → K) (v : Fin 2 → K) (o o' : Overlap K) (ho : MovedOv dims per coords v o o')
    (hs : o.polySet = true) (i : Nat) (hi : i < o.numPolyPoints) (a b : Finder K 2 × Corners K) (hab : MovedState dims per coords v a b) :
    Sim (MovedState dims per coords v) (o.point g i a) (o'.point g i b) := by
  obtain ⟨pc, e1, e2⟩ := ho.poly hs
  have ht : (forAxes fun j : Fin 2 => vget o.polyPoints (i * 2 + j)) = .ok (fun j : Fin 2 => pc (i * 2 + j)) := by
    refine forAxes_ok _ _ fun j => ?_
    rw [e1, vget_eq_ok, List.getElem?_map, List.getElem?_range (by omega), Option.map_some]
  have ht' : (forAxes fun j : Fin 2 => vget o'.polyPoints (i * 2 + j)) = .ok (fun j : Fin 2 => pc (i * 2 + j) + v j) := by
    refine forAxes_ok _ _ fun j => ?_
    rw [e2, vget_eq_ok, List.getElem?_map, List.getElem?_range (by omega), Option.map_some]
    fin_cases j
    · simp
    · simp [Nat.add_mod]
  have hle : ∀ i, dims i ≤ 2147483647 := by
    have h0 := hd 0; have h1 := hd 1
    intro i; fin_cases i
    · show dims 0 ≤ _; nlinarith
    · show dims 1 ≤ _; nlinarith
  have hstart : InGrid dims (FindOverlap.startIndices dims : Fin 2 → K) := start_inGrid3 dims (hd 0) hd1
  have hgd : a.1.dims = dims := hab.grid.dims
  have hG : Good (a.1.reset (FindOverlap.startIndices dims) fun j : Fin 2 => pc (i * 2 + j)) := by
    refine ⟨ready_reset _ _ _ hab.ready, ?_, ?_, start_okPos dims hd hp⟩
    · show GoodDims a.1.dims
      rw [hgd]
      exact fun i => ⟨hd i, hle i⟩
    · intro i
      show (a.1.coords i).length = ∏ k, a.1.dims k
      rw [hab.grid.coords, hab.grid.dims]
      simp [ovFinder, Finder.setGrid]
  obtain ⟨c, s, e, -, -⟩ := NodeInterp.loop_good g hg (by norm_num) a.1.fuelOf _ hG (fuelOf_pos _)
  obtain ⟨hr, hq, -⟩ := loop_frame g hg (by norm_num) a.1.fuelOf _ c s hG.ready e
  have e' := loop_shift g hg (by norm_num) v a.1.fuelOf _ hG (by show InGrid a.1.dims _; rw [hgd]; exact hstart) e
  obtain ⟨tp, hm⟩ := hab.finder
  have e3 : searchLoop g b.1.fuelOf (b.1.reset (FindOverlap.startIndices dims) fun j : Fin 2 => pc (i * 2 + j) + v j) = .ok (c, shiftF v s) := by
    rw [hm]
    exact e'
  unfold Overlap.point
  rw [ht, ht', ho.nodes, ho.set.nodes]
  simp only [bind, Except.bind, pure, Except.pure]
  rw [e, e3]
  refine sim_ok ⟨hr, ?_, moved_shift v s, ?_⟩
  · exact sameGrid_trans hab.grid ⟨hq.coords, hq.bounds, hq.per, hq.dims, hq.nitermax, hq.tolpos⟩
  · dsimp only
    rw [hab.corners]
    rfl

theorem box_mv (g : Gels K) (hg : KeepsSizes g) (dims : Fin 2 → Nat) (hd : ∀ i, 2 ≤ dims i) (hd1 : 3 ≤ dims 1)
    (hp : dims 0 * dims 1 ≤ 2147483647) (per : Fin 2 → Int) (coords : Fin 2 → Nat → K) (v : Fin 2 → K) (o o' : Overlap K) (ho : MovedOv dims per coords v o o') :
    Sim (MovedState dims per coords v) (o.findFloatIndexBoxOfPolygon g) (o'.findFloatIndexBoxOfPolygon g) := by
  unfold Overlap.findFloatIndexBoxOfPolygon
  rw [ho.gridSet, ho.polySet, ho.num, ho.nodes, ho.set.gridSet]
  cases hs : o.polySet with
  | false => exact sim_error _
  | true => exact sim_forN' _ ⟨ho.set.ready, ho.set.grid, ho.finder, rfl⟩ fun i a b hi hab => point_mv g hg dims hd hd1 hp per coords v o o' ho hs i hi a b hab

theorem findCells_mv (g : Gels K) (hg : KeepsSizes g) (dims : Fin 2 → Nat) (hd : ∀ i, 2 ≤ dims i) (hd1 : 3 ≤ dims 1)
    (hp : dims 0 * dims 1 ≤ 2147483647) (per : Fin 2 → Int) (coords : Fin 2 → Nat → K) (v : Fin 2 → K) (o o' : Overlap K) (ho : MovedOv dims per coords v o o') :
    Sim (MovedOv dims per coords v) (o.findSrcCellIndices g) (o'.findSrcCellIndices g) := by
  unfold Overlap.findSrcCellIndices
  refine sim_bind (box_mv g hg dims hd hd1 hp per coords v o o' ho) fun a b hab => ?_
  obtain ⟨f, c⟩ := a
  obtain ⟨f', c'⟩ := b
  obtain rfl : c' = c := hab.corners
  have hb : ∀ j, o'.boxInds c' j = o.boxInds c' j := fun j => by unfold Overlap.boxInds; rw [ho.eps, ho.nodes]
  have hc : ∀ e, o'.cellIndx e = o.cellIndx e := fun e => by unfold Overlap.cellIndx; rw [ho.prod]
  simp only [hb, hc]
  refine sim_bind_eq fun b0 => sim_bind_eq fun b1 => sim_bind_eq fun bx => sim_bind_eq fun inds => sim_pure ?_
  exact ⟨⟨hab.ready, hab.grid, ho.set.nodes, ho.set.prod, ho.set.eps, ho.set.gridSet⟩, hab.finder, ho.nodes, ho.prod, ho.eps, ho.gridSet, ho.polySet, ho.num, rfl, ho.poly⟩

theorem runOverlap_mv (g : Gels K) (hg : KeepsSizes g) (dims : Fin 2 → Nat) (hd : ∀ i, 2 ≤ dims i) (hd1 : 3 ≤ dims 1)
    (hp : dims 0 * dims 1 ≤ 2147483647) (per : Fin 2 → Int) (coords : Fin 2 → Nat → K) (v : Fin 2 → K) : ∀ (cs : List (OverlapCall K)) (o o' : Overlap K),
    MovedOv dims per coords v o o' → Sim (MovedOv dims per coords v) (runOverlap g o cs) (runOverlap g o' (cs.map (movedPolygon v)))
  | [], _, _, h => sim_ok h
  | .setPolygon n c :: cs, o, o', h => by
    refine runOverlap_mv g hg dims hd hd1 hp per coords v cs (o.setPolygonPoints n c) _ ?_
    exact ⟨⟨h.set.ready, h.set.grid, h.set.nodes, h.set.prod, h.set.eps, h.set.gridSet⟩, h.finder, h.nodes, h.prod, h.eps, h.gridSet, rfl, rfl, h.cells, fun _ => ⟨c, rfl, rfl⟩⟩
  | .find :: cs, o, o', h => by
    show Sim _ (o.findSrcCellIndices g >>= fun x => runOverlap g x cs) (o'.findSrcCellIndices g >>= fun x => runOverlap g x (cs.map (movedPolygon v)))
    exact sim_bind (findCells_mv g hg dims hd hd1 hp per coords v o o' h) fun a b hab => runOverlap_mv g hg dims hd hd1 hp per coords v cs a b hab

/-- **C149, part.**  Missing: grids of two nodes along the second axis (`C149_cells_refuted`).  Proved, for a grid of any shape with at least three nodes along that axis,
and any history of polygons and searches of cells: the history on the grid moved by `v`, with the polygons moved by `v`, has the same outcome, and ends with the same
list of candidate cells.  (The coordinates of the first node are in the range of numbers that are not overflown, before and after.) -/
theorem C149_cells_partial (g : Gels K) (hg : KeepsSizes g) (dims : Fin 2 → Nat) (hd : 2 ≤ dims 0) (hd1 : 3 ≤ dims 1) (hp : dims 0 * dims 1 ≤ 2147483647)
    (per : Fin 2 → Int) (coords : Fin 2 → Nat → K) (v : Fin 2 → K) (h1 : ∀ i, -FOps.big ≤ coords i 0 ∧ coords i 0 ≤ FOps.big)
    (h2 : ∀ i, -FOps.big ≤ coords i 0 + v i ∧ coords i 0 + v i ≤ FOps.big) (cs : List (OverlapCall K)) :
    (runOverlap g ((FindOverlap.new : Overlap K).setSrcGrid dims per fun i k => coords i k + v i) (cs.map (movedPolygon v))).map (·.srcCellFlatInds) =
      (runOverlap g ((FindOverlap.new : Overlap K).setSrcGrid dims per coords) cs).map (·.srcCellFlatInds) := by
  have hd' : ∀ i, 2 ≤ dims i := fun i => by
    fin_cases i
    · exact hd
    · show 2 ≤ dims 1; omega
  have h0 : MovedOv dims per coords v ((FindOverlap.new : Overlap K).setSrcGrid dims per coords)
      ((FindOverlap.new : Overlap K).setSrcGrid dims per fun i k => coords i k + v i) :=
    ⟨ovSet_grid dims per coords, setGrid_shift 100 _ dims (fun i => by have := hd' i; omega) per coords v h1 h2, rfl, rfl, rfl, rfl, rfl, rfl, rfl,
      fun h => absurd h (by simp [Overlap.setSrcGrid, FindOverlap.new])⟩
  exact (sim_map (runOverlap_mv g hg dims hd' hd1 hp per coords v cs _ _ h0) fun a b h => h.cells.symm).symm

end exact

/-- A ring around the origin: 5 nodes around, the last on the first, and `m` nodes from the radius 1 outwards, one apart. -/
def ringNodes (m : Nat) : Fin 2 → Nat → ℚ := fun a k =>
  let p : ℚ × ℚ := [(1, 0), (0, 1), (-1, 0), (0, -1), (1, 0)].getD (k / m) (0, 0)
  (1 + (k % m : Nat)) * (if a = 0 then p.1 else p.2)

/-- Candidate cells of the point (3/4, -3/4) on the ring, both moved by `v` along the second axis. -/
def ringCells (m : Nat) (v : ℚ) : Cxx (List Int) := do
  let o ← (((FindOverlap.new : Overlap ℚ).setSrcGrid ![5, m] ![0, 0] fun a k => ringNodes m a k + ![0, v] a).setPolygonPoints 1
    (fun k => [3 / 4, -3 / 4 + v].getD k 0)).findSrcCellIndices gels2
  return o.srcCellFlatInds

/-- **C149 is false** of a ring of 4 times 1 cells.  The point (3/4, -3/4) is in the last cell, which is the candidate; with ring and point moved by 100 along the second
axis, a cell at the other end of the grid is reported and the last one is not.  The start of the search along an axis of two nodes, `2/1.9647354`, is outside the grid
(SgFindOverlappingCells2D.h:107); there the weights do not sum to one, and the first step depends on the origin. -/
theorem C149_cells_refuted : ringCells 2 0 = .ok [6] ∧ ringCells 2 100 = .ok [2] := by
  constructor <;> decide +kernel

/-- With three nodes outwards the cell is the same. -/
example : ringCells 3 0 = .ok [9] ∧ ringCells 3 100 = .ok [9] := by
  constructor <;> decide +kernel

/-- The hypotheses of `C149_cells_partial` for this ring, moved by 100. -/
example : (2 ≤ (![5, 3] : Fin 2 → Nat) 0 ∧ 3 ≤ (![5, 3] : Fin 2 → Nat) 1) ∧ (∀ i, -FOps.big ≤ ringNodes 3 i 0 ∧ ringNodes 3 i 0 ≤ FOps.big) ∧
    ∀ i, -FOps.big ≤ ringNodes 3 i 0 + (![0, 100] : Fin 2 → ℚ) i ∧ ringNodes 3 i 0 + (![0, 100] : Fin 2 → ℚ) i ≤ FOps.big := by decide +kernel

end Sg.Props
