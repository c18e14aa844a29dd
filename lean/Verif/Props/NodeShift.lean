import Verif.Proof.NodeShift
import Verif.Props.NodeInterp
/-
Property C147: the origin of the coordinates does not matter to the index search and to nodal interpolation.  `K` is an ordered field with a floor; `g` is a linear algebra
library that leaves the sizes of its arrays alone; nothing is assumed about what it computes.
-/
namespace Sg.Props
open Sg Sg.FindPoint Sg.LinearSolve Sg.Spec Sg.NodeInterp

set_option linter.unusedSectionVars false
variable {K : Type} [Field K] [LinearOrder K] [IsStrictOrderedRing K] [FloorRing K] [FOps K] [FOpsLaws K]

/-- **C147** Any grid of any number of axes, any tolerance and number of steps: a search on the grid moved by `v`, from a position in the grid, for the target moved by `v`,
ends with the same code, at the same indices and with the same history of errors as the search on the grid for the target; the place reported is moved by `v`.  (The
coordinates of the first node are in the range of numbers that are not overflown, before and after.) -/
theorem C147_search {n : Nat} (hn : 1 ≤ n) (g : Gels K) (hg : KeepsSizes g) (nitermax : Int) (tolpos : K) (dims : Fin n → Nat) (hd : GoodDims dims) (per : Fin n → Int)
    (coords : Fin n → Nat → K) (v : Fin n → K) (h1 : ∀ i, -FOps.big ≤ coords i 0 ∧ coords i 0 ≤ FOps.big)
    (h2 : ∀ i, -FOps.big ≤ coords i 0 + v i ∧ coords i 0 + v i ≤ FOps.big) (d t : Fin n → K) (hdi : InGrid dims d) (k : Nat) (hk : 1 ≤ k) :
    ∃ c s s', searchLoop g k (((Finder.new nitermax tolpos).setGrid dims per coords).reset d t) = .ok (c, s) ∧
      searchLoop g k (((Finder.new nitermax tolpos).setGrid dims per fun i m => coords i m + v i).reset d fun i => t i + v i) = .ok (c, s') ∧
      s'.dIndices = s.dIndices ∧ s'.errorHistory = s.errorHistory ∧ s'.getError = s.getError ∧
      ∃ p, s.getPosition = .ok p ∧ s'.getPosition = .ok fun i => p i + v i := by
  set f := (Finder.new nitermax tolpos).setGrid dims per coords with hf
  have hG : Good (f.reset d t) := ⟨ready_setGrid _ dims per coords, hd, fun i => by simp [hf, Finder.setGrid, Finder.reset], okPos_of_inGrid dims hd d hdi⟩
  obtain ⟨c, s, e, hs, hpos⟩ := loop_good g hg hn k (f.reset d t) hG hk
  have hfr := (loop_frame g hg hn k (f.reset d t) c s hG.ready e).2.1
  have hin : InGrid s.dims s.dIndices := by
    rcases hpos with h | h
    · exact h
    · rw [h.1, hfr.dims]; exact hdi
  obtain ⟨tp, em⟩ := setGrid_shift nitermax tolpos dims (fun i => by have := (hd i).1; omega) per coords v h1 h2
  have e' := loop_shift g hg hn v k (f.reset d t) hG hdi e
  refine ⟨c, s, shiftF v s, e, ?_, rfl, rfl, getError_shift v s hs.dims hs.coords hin, getPosition_shift v s hs.dims hs.coords hin⟩
  rw [em]
  exact e'

/-- **C147** Any two grids, any tolerance and number of steps: moving both grids by `v` leaves the table of weights of nodal interpolation as it is, and so the result for
any data. -/
theorem C147_nodal (g : Gels K) (hg : KeepsSizes g) (nitermax : Int) (tolpos : K) (dims : Fin 2 → Nat) (hd : ∀ i, 2 ≤ dims i ∧ dims i ≤ 2 ^ 30) (per : Fin 2 → Int)
    (coords : Fin 2 → Nat → K) (dd : Fin 2 → Nat) (dc : Fin 2 → Nat → K) (v : Fin 2 → K) (h1 : ∀ i, -FOps.big ≤ coords i 0 ∧ coords i 0 ≤ FOps.big)
    (h2 : ∀ i, -FOps.big ≤ coords i 0 + v i ∧ coords i 0 + v i ≤ FOps.big) :
    ∃ o o', (((new nitermax tolpos).setSrcGrid dims per coords).setDstGrid dd dc).computeWeights g = .ok o ∧
      (((new nitermax tolpos).setSrcGrid dims per fun i m => coords i m + v i).setDstGrid dd fun i m => dc i m + v i).computeWeights g = .ok o' ∧
      o'.weights = o.weights ∧ ∀ src dst, o'.apply src dst = o.apply src dst := by
  set o0 := ((new nitermax tolpos).setSrcGrid dims per coords).setDstGrid dd dc with ho0
  set o1 := ((new nitermax tolpos).setSrcGrid dims per fun i m => coords i m + v i).setDstGrid dd fun i m => dc i m + v i with ho1
  have hset := set2_of nitermax tolpos dims hd per coords dd dc
  obtain ⟨s, hs, -⟩ := before_good g hg o0 dims hset o0.dstNumPoints le_rfl
  obtain ⟨b, hb, hab⟩ := before_shift g hg v o0 o1 dims hset rfl (setGrid_shift nitermax tolpos dims (fun i => by have := (hd i).1; omega) per coords v h1 h2)
    (fun k hk t ht => by
      have hk' : k < dd 0 * dd 1 := hk
      rw [ho0, target_eq _ _ _ _ hk', Except.ok.injEq] at ht
      rw [ho1, target_eq _ _ _ _ hk', ← ht]) o0.dstNumPoints le_rfl s hs
  have hb' : o1.before g o1.dstNumPoints = .ok b := hb
  refine ⟨{ o0 with finder := s.finder, weights := s.weights }, { o1 with finder := b.finder, weights := b.weights }, ?_, ?_, hab.w, fun src dst => ?_⟩
  · rw [computeWeights_set g o0 rfl rfl, hs]; rfl
  · rw [computeWeights_set g o1 rfl rfl, hb']; rfl
  · unfold NodeInterp.apply
    dsimp only
    rw [hab.w]

/-- A curved grid of 3 times 2 nodes, moved by (100, -7); both weight tables, with a node inside and one outside. -/
example : (do
    let x : Nat → ℚ := fun k => [0, 0, 1, 3 / 2, 2, 2].getD k 0
    let y : Nat → ℚ := fun k => [0, 1, 0, 2, 0, 1].getD k 0
    let o ← (((new 9 (1 / 1000) : NodeInterp ℚ).setSrcGrid ![3, 2] ![0, 0] fun a => ![x, y] a).setDstGrid ![2, 1] (fun a k => ![[1 / 2, 9].getD k 0, 1 / 2] a)).computeWeights gels2
    let o' ← (((new 9 (1 / 1000) : NodeInterp ℚ).setSrcGrid ![3, 2] ![0, 0] fun a k => ![x, y] a k + ![100, -7] a).setDstGrid ![2, 1]
      (fun a k => ![[1 / 2, 9].getD k 0, 1 / 2] a + ![100, -7] a)).computeWeights gels2
    return (decide (o.weights = o'.weights), o.weights.map Prod.fst)) = .ok (true, [0]) := by decide +kernel

/-- A search on a curved grid and on the grid moved by (100, -7): same code, same indices, moved place. -/
example : (do
    let x : Nat → ℚ := fun k => [0, 0, 1, 3 / 2, 2, 2].getD k 0
    let y : Nat → ℚ := fun k => [0, 1, 0, 2, 0, 1].getD k 0
    let (c, s) ← searchLoop gels2 3 (((Finder.new 9 (1 / 1000)).setGrid ![3, 2] ![0, 0] fun a => ![x, y] a).reset ![1, 1 / 2] ![1 / 2, 1 / 2])
    let (c', s') ← searchLoop gels2 3 (((Finder.new 9 (1 / 1000)).setGrid ![3, 2] ![0, 0] fun a k => ![x, y] a k + ![100, -7] a).reset ![1, 1 / 2] ![1 / 2 + 100, 1 / 2 - 7])
    let p ← s.getPosition
    let p' ← s'.getPosition
    return (decide (c = c'), decide (∀ i, s.dIndices i = s'.dIndices i), decide (s.errorHistory = s'.errorHistory), s.errorHistory.length, p' 0 - p 0, p' 1 - p 1)) =
    .ok (true, true, true, 2, 100, -7) := by decide +kernel

/-- The range of coordinates holds all numbers that matter. -/
example : -(FOps.big : ℚ) ≤ 100 ∧ (100 : ℚ) ≤ FOps.big := by decide +kernel

end Sg.Props
