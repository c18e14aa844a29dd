import Verif.Props.FlowInterp
/-
Property C90: the order in which the calls of the flow interpolator may be made.
-/
namespace Sg.Props
open Sg Sg.FlowInterp Sg.QuadIntersect Sg.QuadFlows Sg.LinearSolve Sg.Triangulate Sg.FindPoint Sg.Spec

/-- Calls of the flow interpolator, in any order. -/
inductive FlowUse (F : Type) where
  | call (c : FlowCall F)
  | apply (x y d : List F)

/-- What the caller has to keep in mind: numbers of nodes of the source grid and of the line, if set, and the largest number of
segments the line had when weights were computed. -/
structure FlowSizes where
  src : Option (Nat × Nat) := none
  dst : Option Nat := none
  need : Nat := 0

section
set_option linter.unusedSectionVars false
variable {F : Type} [Zero F] [One F] [Add F] [Sub F] [Mul F] [Div F] [Neg F] [LT F] [DecidableLT F]
  [LE F] [DecidableLE F] [DecidableEq F] [NatCast F] [IntCast F] [FOps F]

def FlowUse.exec (pert : Nat → Nat → Nat → F) (g : Gels F) (srt : List F → List F) (o : Flow F) : FlowUse F → Cxx (Flow F)
  | .call c => c.exec pert g srt o
  | .apply x y d => do let _ ← o.apply x y d; return o

/-- A sequence of calls. -/
def runFlowUses (pert : Nat → Nat → Nat → F) (g : Gels F) (srt : List F → List F) : Flow F → List (FlowUse F) → Cxx (Flow F)
  | o, [] => .ok o
  | o, c :: cs => do let o' ← c.exec pert g srt o; runFlowUses pert g srt o' cs

/-- Sequences of calls a careful caller makes: grids have at least two nodes per axis, lines at least one, and the arrays the
numbers they say; weights are computed once both grids are set; the arrays given to `apply` have the numbers of edges of the source
grid set last, and as many segments as any line had when weights were computed. -/
def CarefulFlow : FlowSizes → List (FlowUse F) → Prop
  | _, [] => True
  | z, .call (.setSrc n0 n1 xs ys) :: cs => (2 ≤ n0 ∧ 2 ≤ n1 ∧ n0 * n1 ≤ 1073741824 ∧ n0 * n1 ≤ xs.length ∧ n0 * n1 ≤ ys.length) ∧
      CarefulFlow { z with src := some (n0, n1) } cs
  | z, .call (.setDst n xs ys) :: cs => (1 ≤ n ∧ n ≤ xs.length ∧ n ≤ ys.length) ∧ CarefulFlow { z with dst := some n } cs
  | z, .call .compute :: cs => z.src ≠ none ∧ ∃ n, z.dst = some n ∧ CarefulFlow { z with need := max z.need (n - 1) } cs
  | z, .apply x y d :: cs => ((∀ n0 n1, z.src = some (n0, n1) → (n0 - 1) * n1 ≤ x.length ∧ n0 * (n1 - 1) ≤ y.length) ∧
      z.need ≤ d.length) ∧ CarefulFlow z cs

/-- Invariant of careful use. -/
structure FlowTracks (o : Flow F) (z : FlowSizes) : Prop where
  src : ∀ n0 n1, z.src = some (n0, n1) → 2 ≤ n0 ∧ 2 ≤ n1 ∧ ∃ s p, o.src = some s ∧ SrcOk n0 n1 p s
  unset : z.src = none → o.weights = []
  dst : ∀ n, z.dst = some n → ∃ d p, o.dst = some d ∧ DstOk n p d
  table : TableIn z.need 2147483648 o.weights

theorem flowTracks_new : FlowTracks (Flow.new : Flow F) {} :=
  ⟨(by intro a b h; cases h), (fun _ => rfl), (by intro n h; cases h), tableIn_nil _ _⟩

/-- **C90** Computing weights without a line, or without a source grid for a line that has a segment, reads numbers that were
never written. -/
theorem C90_flow_unset (pert : Nat → Nat → Nat → F) (g : Gels F) (srt : List F → List F) (o : Flow F)
    (h : o.dst = none ∨ (o.src = none ∧ ∃ d, o.dst = some d ∧ d.numCells ≠ 0)) : o.computeWeights g srt = .error .uninit := by
  unfold Flow.computeWeights
  rcases h with h | ⟨h, d, h1, h2⟩
  · rw [h]
  · rw [h, h1]
    dsimp only
    rw [if_neg h2]
end

section exact
set_option linter.unusedSectionVars false
variable {K : Type} [Field K] [LinearOrder K] [IsStrictOrderedRing K] [FloorRing K] [FOps K] [FOpsLaws K]

theorem run_flowTracks (pert : Nat → Nat → Nat → K) (g : Gels K) (hg : FindPoint.KeepsSizes g) (srt : List K → List K) :
    ∀ (cs : List (FlowUse K)) (o : Flow K) (z : FlowSizes), FlowTracks o z → CarefulFlow z cs →
      ∃ o', runFlowUses pert g srt o cs = .ok o'
  | [], o, _, _, _ => ⟨o, rfl⟩
  | .call (.setSrc n0 n1 xs ys) :: cs, o, z, h, hc => by
    obtain ⟨⟨h0, h1, hf, hx, hy⟩, hc⟩ := hc
    obtain ⟨s, e, hs⟩ := setSrcGrid_ok o (by omega) (by omega) hf hx hy
    obtain ⟨o', e'⟩ := run_flowTracks pert g hg srt cs { o with src := some s } { z with src := some (n0, n1) }
      ⟨fun a b hab => by cases hab; exact ⟨h0, h1, s, _, rfl, hs⟩, (by intro h; cases h), h.dst, h.table⟩ hc
    exact ⟨o', bind_eq e e'⟩
  | .call (.setDst n xs ys) :: cs, o, z, h, hc => by
    obtain ⟨⟨h0, hx, hy⟩, hc⟩ := hc
    obtain ⟨d, e, hd⟩ := setDstGrid_ok pert o h0 hx hy
    obtain ⟨o', e'⟩ := run_flowTracks pert g hg srt cs { o with dst := some d } { z with dst := some n }
      ⟨h.src, h.unset, fun a ha => by cases ha; exact ⟨d, _, rfl, hd⟩, h.table⟩ hc
    exact ⟨o', bind_eq e e'⟩
  | .call .compute :: cs, o, z, h, hc => by
    obtain ⟨hsrc, n, hdst, hc⟩ := hc
    obtain ⟨⟨n0, n1⟩, hz⟩ := Option.ne_none_iff_exists'.mp hsrc
    obtain ⟨h0, h1, s, p, hs, hok⟩ := h.src n0 n1 hz
    obtain ⟨d, P, hd, hdo⟩ := h.dst n hdst
    obtain ⟨o1, S, e, f1, f2, f3, -, -⟩ := compute_spec hg srt hok hdo o hs hd h.table.ok
    obtain ⟨-, -, -, ft⟩ := compute_table e
    have hfit : (n0 - 1) * (n1 - 1) ≤ n0 * n1 := Nat.mul_le_mul (by omega) (by omega)
    have hfits := hok.fits
    have hnc := hok.numCells
    have hdn := hdo.numCells
    obtain ⟨o', e'⟩ := run_flowTracks pert g hg srt cs o1 { z with need := max z.need (n - 1) }
      ⟨fun a b hab => by
        obtain ⟨a0, a1, s', p', hs', hok'⟩ := h.src a b hab
        exact ⟨a0, a1, s', p', by rw [f1, ← hs, hs'], hok'⟩,
       fun hn => absurd hn hsrc,
       fun a ha => by
        obtain ⟨d', P', hd', hdo'⟩ := h.dst a ha
        exact ⟨d', P', by rw [f2, ← hd, hd'], hdo'⟩,
       ft _ _ (fun d' hd' => by
          rw [hd] at hd'; cases hd'
          rw [hdn]; exact le_max_right _ _) (fun s' hs' => by
          rw [hs] at hs'; cases hs'
          omega) (h.table.mono (le_max_left _ _) le_rfl)⟩ hc
    exact ⟨o', bind_eq e e'⟩
  | .apply x y d :: cs, o, z, h, hc => by
    obtain ⟨⟨hxy, hd⟩, hc⟩ := hc
    have ha : ∃ d', o.apply x y d = .ok d' := by
      cases hz : z.src with
      | none =>
        unfold Flow.apply
        rw [h.unset hz]
        exact ⟨d, rfl⟩
      | some n =>
        obtain ⟨n0, n1⟩ := n
        obtain ⟨h0, h1, s, p, hs, hok⟩ := h.src n0 n1 hz
        obtain ⟨d', e, -⟩ := apply_ok hok h0 h1 ⟨(hxy n0 n1 hz).1, (hxy n0 n1 hz).2⟩ o hs h.table.ok d (fun e he => by
          have := h.table.lt e he
          refine ⟨this.1.trans_le hd, fun c hc => ?_⟩
          have := this.2 c hc
          omega)
        exact ⟨d', e⟩
    obtain ⟨d', e⟩ := ha
    obtain ⟨o', e'⟩ := run_flowTracks pert g hg srt cs o z h hc
    refine ⟨o', bind_eq ?_ e'⟩
    show (o.apply x y d >>= fun _ => pure o) = _
    rw [e]
    rfl

/-- **C90** Flow interpolator: a careful sequence of calls on a new object, with any coordinates, data, library that keeps the
sizes of its arrays and perturbation, has no undefined behaviour.  Grids may be changed between `computeWeights` and `apply`:
the cells of the old weights are then taken in the new source grid. -/
theorem C90_flow_careful (pert : Nat → Nat → Nat → K) (g : Gels K) (hg : FindPoint.KeepsSizes g) (srt : List K → List K)
    (cs : List (FlowUse K)) (hc : CarefulFlow {} cs) : ∃ o, runFlowUses pert g srt Flow.new cs = .ok o :=
  run_flowTracks pert g hg srt cs _ _ flowTracks_new hc

end exact

/-! ### Examples -/

/-- The unit square with 2 times 2 nodes, then 3 times 3 nodes; a line of two segments, then one of one. -/
def carefulFlowOps : List (FlowUse ℚ) :=
  [.call (.setDst 3 [0, 1 / 2, 1] [0, 1 / 4, 1]), .call (.setSrc 2 2 [0, 0, 1, 1] [0, 1, 0, 1]), .call .compute,
   .apply [1, 2] [3, 4] [0, 0],
   .call (.setSrc 3 3 [0, 0, 0, 1, 1, 1, 2, 2, 2] [0, 1, 2, 0, 1, 2, 0, 1, 2]), .call (.setDst 2 [0, 1] [0, 1]), .call .compute,
   .apply [1, 2, 3, 4, 5, 6] [1, 2, 3, 4, 5, 6] [0, 0]]

example : CarefulFlow {} carefulFlowOps := by simp [carefulFlowOps, CarefulFlow]

/-- The sequence runs to its end with a solver and a sort that can be evaluated. -/
example : ∃ o : Flow ℚ, runFlowUses noPert Sg.Witness.cramerGels sortReal Flow.new carefulFlowOps = .ok o := by
  have h : (runFlowUses noPert Sg.Witness.cramerGels sortReal (Flow.new : Flow ℚ) carefulFlowOps).isOk = true := by
    decide +kernel
  revert h
  cases runFlowUses noPert Sg.Witness.cramerGels sortReal (Flow.new : Flow ℚ) carefulFlowOps with
  | ok o => exact fun _ => ⟨o, rfl⟩
  | error e => exact fun h => by cases h

end Sg.Props
