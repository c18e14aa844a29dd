import Verif.Props.NodeInterp
import Verif.Props.FindOverlap
/-
Property C89: the order in which the calls of the nodal interpolator and of the cell search may be made.
-/
namespace Sg.Props
open Sg Sg.FindPoint Sg.LinearSolve Sg.Spec Sg.NodeInterp Sg.FindOverlap

/-- Calls of the nodal interpolator, in any order.  The arrays given to `apply` are those the caller owns. -/
inductive NodeOp (F : Type)
  | setSrc (dims : Fin 2 → Nat) (per : Fin 2 → Int) (coords : Fin 2 → Nat → F)
  | setDst (dims : Fin 2 → Nat) (coords : Fin 2 → Nat → F)
  | compute
  | apply (srcData dstData : List F)

/-- What the caller has to keep in mind: number of nodes of the source grid and of the destination grid, if set, and those
at the time of the last `compute`. -/
structure Sizes where
  src : Option Nat := none
  dst : Option Nat := none
  table : Nat × Nat := (0, 0)

section
variable {F : Type} [Zero F] [One F] [Add F] [Sub F] [Mul F] [Div F] [Neg F] [LT F] [DecidableLT F]
  [LE F] [DecidableLE F] [DecidableEq F] [NatCast F] [IntCast F] [FOps F]

/-- Effect of a call on the object. -/
def NodeOp.exec (g : Gels F) (o : NodeInterp F) : NodeOp F → Cxx (NodeInterp F)
  | .setSrc dims per coords => .ok (o.setSrcGrid dims per coords)
  | .setDst dims coords => .ok (o.setDstGrid dims coords)
  | .compute => o.computeWeights g
  | .apply src dst => do let _ ← o.apply src dst; return o

/-- A sequence of calls. -/
def runNodeOps (g : Gels F) : NodeInterp F → List (NodeOp F) → Cxx (NodeInterp F)
  | o, [] => .ok o
  | o, c :: cs => do let o' ← c.exec g o; runNodeOps g o' cs

/-- Sequences of calls a careful caller makes: source grids of 2 to 2^30 nodes per axis; weights are computed once both
grids are set; the arrays given to `apply` have at least the sizes of the grids of the last `compute` (no matter which
grids were set since). -/
def Careful : Sizes → List (NodeOp F) → Prop
  | _, [] => True
  | z, .setSrc dims _ _ :: cs => (∀ i, 2 ≤ dims i ∧ dims i ≤ 2 ^ 30) ∧ Careful { z with src := some (dims 0 * dims 1) } cs
  | z, .setDst dims _ :: cs => Careful { z with dst := some (dims 0 * dims 1) } cs
  | z, .compute :: cs => ∃ a b, z.src = some a ∧ z.dst = some b ∧ Careful { z with table := (a, b) } cs
  | z, .apply src dst :: cs => (z.table.1 ≤ src.length ∧ z.table.2 ≤ dst.length) ∧ Careful z cs
end

section exact
set_option linter.unusedSectionVars false
variable {K : Type} [Field K] [LinearOrder K] [IsStrictOrderedRing K] [FloorRing K] [FOps K] [FOpsLaws K]

/-- Invariant of careful use. -/
structure Tracks (o : NodeInterp K) (z : Sizes) : Prop where
  src : ∀ a, z.src = some a → o.srcSet = true ∧ GridOK o.finder ∧ (∀ i, 2 ≤ o.finder.dims i ∧ o.finder.dims i ≤ 2 ^ 30) ∧
    (o.srcCellDims = fun j => o.finder.dims j - 1) ∧ a = o.finder.dims 0 * o.finder.dims 1
  dst : ∀ b, z.dst = some b → o.dstSet = true ∧ o.dstGrdCoords.length = 2 * o.dstNumPoints ∧ b = o.dstNumPoints
  table : GoodTable o.weights z.table.1 z.table.2

theorem tracks_new (nitermax : Int) (tolpos : K) : Tracks (NodeInterp.new nitermax tolpos) {} :=
  ⟨(by intro a h; cases h), (by intro b h; cases h), ⟨List.Pairwise.nil, (by intro e he; cases he), (by intro e he; cases he)⟩⟩

theorem tracks_compute (g : Gels K) (hg : KeepsSizes g) (o : NodeInterp K) (z : Sizes) (h : Tracks o z) (a b : Nat)
    (ha : z.src = some a) (hb : z.dst = some b) :
    ∃ o', o.computeWeights g = .ok o' ∧ Tracks o' { z with table := (a, b) } := by
  obtain ⟨s1, s2, s3, s4, s5⟩ := h.src a ha
  obtain ⟨d1, d2, d3⟩ := h.dst b hb
  have hset : Set2 o o.finder.dims := ⟨s2, rfl, s3, s4, d2⟩
  obtain ⟨s, hs, hl⟩ := before_good g hg o o.finder.dims hset o.dstNumPoints (le_refl _)
  have hgd : GoodDims o.finder.dims := fun i => ⟨(s3 i).1, (s3 i).2.trans (by norm_num)⟩
  refine ⟨{ o with finder := s.finder, weights := s.weights }, by rw [computeWeights_set g o s1 d1, hs]; rfl, ?_⟩
  have hd : s.finder.dims = o.finder.dims := hl.same.dims
  refine ⟨?_, ?_, ⟨hl.sorted, ?_, ?_⟩⟩
  · intro a' ha'
    have : a' = a := by
      have h1 : z.src = some a' := ha'
      rw [ha] at h1
      exact (Option.some.inj h1).symm
    subst this
    dsimp only
    rw [hd]
    exact ⟨s1, gridOK_same s2 hl.same hl.ready, s3, s4, s5⟩
  · intro b' hb'
    exact h.dst b' hb'
  · intro e he
    dsimp only
    rw [d3]
    exact hl.keys e he
  · intro e he q hq
    obtain ⟨d, t, hin, _, hiw, _⟩ := hl.entries e he
    obtain ⟨iw, h1, h2, _⟩ := C29_indices_valid o.finder.dims hgd d hin
    rw [hiw, Except.ok.injEq] at h1
    have := h2 q (h1 ▸ hq)
    rw [Fin.prod_univ_two] at this
    dsimp only
    rw [s5]
    exact this

theorem run_tracks (g : Gels K) (hg : KeepsSizes g) : ∀ (cs : List (NodeOp K)) (o : NodeInterp K) (z : Sizes), Tracks o z →
    Careful z cs → ∃ o', runNodeOps g o cs = .ok o'
  | [], o, _, _, _ => ⟨o, rfl⟩
  | .setSrc dims per coords :: cs, o, z, h, hc => by
    obtain ⟨hd, hc⟩ := hc
    refine run_tracks g hg cs (o.setSrcGrid dims per coords) { z with src := some (dims 0 * dims 1) } ⟨?_, h.dst, h.table⟩ hc
    intro a ha
    refine ⟨rfl, ⟨ready_setGrid _ _ _ _, fun i => ⟨(hd i).1, (hd i).2.trans (by norm_num)⟩, fun i => ?_⟩, hd, rfl, ?_⟩
    · simp [NodeInterp.setSrcGrid, Finder.setGrid]
    · exact (Option.some.inj ha).symm
  | .setDst dims coords :: cs, o, z, h, hc => by
    refine run_tracks g hg cs (o.setDstGrid dims coords) { z with dst := some (dims 0 * dims 1) } ⟨h.src, ?_, h.table⟩ hc
    intro b hb
    exact ⟨rfl, by simp [NodeInterp.setDstGrid], (Option.some.inj hb).symm⟩
  | .compute :: cs, o, z, h, hc => by
    obtain ⟨a, b, ha, hb, hc⟩ := hc
    obtain ⟨o', ho', ht⟩ := tracks_compute g hg o z h a b ha hb
    obtain ⟨o2, h2⟩ := run_tracks g hg cs o' _ ht hc
    refine ⟨o2, ?_⟩
    unfold runNodeOps NodeOp.exec
    rw [ho']
    exact h2
  | .apply src dst :: cs, o, z, h, hc => by
    obtain ⟨⟨h1, h2⟩, hc⟩ := hc
    obtain ⟨d, hd, _⟩ := C38_apply o src dst ⟨h.table.keys, fun e he => lt_of_lt_of_le (h.table.dst e he) h2, fun e he q hq => by
      have := h.table.src e he q hq
      omega⟩
    obtain ⟨o2, h3⟩ := run_tracks g hg cs o z h hc
    refine ⟨o2, ?_⟩
    unfold runNodeOps NodeOp.exec
    dsimp only
    rw [hd]
    exact h3

/-- **C89** Nodal interpolator: a careful sequence of calls on a new object, with any grids, any number of iterations and any
tolerance, has no undefined behaviour. -/
theorem C89_node_careful (g : Gels K) (hg : KeepsSizes g) (nitermax : Int) (tolpos : K) (cs : List (NodeOp K))
    (hc : Careful {} cs) : ∃ o, runNodeOps g (NodeInterp.new nitermax tolpos) cs = .ok o :=
  run_tracks g hg cs _ _ (tracks_new nitermax tolpos) hc

end exact

section
set_option linter.unusedSectionVars false
variable {F : Type} [Zero F] [One F] [Add F] [Sub F] [Mul F] [Div F] [Neg F] [LT F] [DecidableLT F]
  [LE F] [DecidableLE F] [DecidableEq F] [NatCast F] [IntCast F] [FOps F]

def NodeOp.isSrc : NodeOp F → Bool
  | .setSrc .. => true
  | _ => false
def NodeOp.isDst : NodeOp F → Bool
  | .setDst .. => true
  | _ => false

theorem run_unset (g : Gels F) : ∀ (cs : List (NodeOp F)) (o o' : NodeInterp F), runNodeOps g o cs = .ok o' →
    (o.srcSet = false → (∀ c ∈ cs, c.isSrc = false) → o'.srcSet = false) ∧
    (o.dstSet = false → (∀ c ∈ cs, c.isDst = false) → o'.dstSet = false)
  | [], o, o', h => by
    simp only [runNodeOps, Except.ok.injEq] at h
    subst h
    exact ⟨fun h _ => h, fun h _ => h⟩
  | c :: cs, o, o', h => by
    unfold runNodeOps at h
    obtain ⟨o1, h1, h⟩ := bind_ok_inv h
    obtain ⟨i1, i2⟩ := run_unset g cs o1 o' h
    have hs : (c.isSrc = false → o1.srcSet = o.srcSet) ∧ (c.isDst = false → o1.dstSet = o.dstSet) := by
      cases c with
      | setSrc d p x =>
        simp only [NodeOp.exec, Except.ok.injEq] at h1
        subst h1
        exact ⟨fun h => (by cases h), fun _ => rfl⟩
      | setDst d x =>
        simp only [NodeOp.exec, Except.ok.injEq] at h1
        subst h1
        exact ⟨fun _ => rfl, fun h => by cases h⟩
      | compute =>
        simp only [NodeOp.exec] at h1
        obtain ⟨_, _, h1⟩ := computeWeights_inv g o o1 h1
        obtain ⟨s, hs, h1⟩ := bind_ok_inv h1
        simp only [pure, Except.pure, Except.ok.injEq] at h1
        subst h1
        exact ⟨fun _ => rfl, fun _ => rfl⟩
      | apply a b =>
        simp only [NodeOp.exec] at h1
        obtain ⟨d, _, h1⟩ := bind_ok_inv h1
        simp only [pure, Except.pure, Except.ok.injEq] at h1
        subst h1
        exact ⟨fun _ => rfl, fun _ => rfl⟩
    constructor
    · intro h0 hcs
      exact i1 ((hs.1 (hcs c (List.mem_cons_self ..))).trans h0) fun c' hc' => hcs c' (List.mem_cons_of_mem _ hc')
    · intro h0 hcs
      exact i2 ((hs.2 (hcs c (List.mem_cons_self ..))).trans h0) fun c' hc' => hcs c' (List.mem_cons_of_mem _ hc')

/-- **C89** Computing the weights when no source grid, or no destination grid, was ever set reads members that were never
written, whatever else was called before. -/
theorem C89_node_unset (g : Gels F) (nitermax : Int) (tolpos : F) (cs : List (NodeOp F)) (o : NodeInterp F)
    (hrun : runNodeOps g (NodeInterp.new nitermax tolpos) cs = .ok o)
    (h : (∀ c ∈ cs, c.isSrc = false) ∨ (∀ c ∈ cs, c.isDst = false)) : o.computeWeights g = .error .uninit := by
  obtain ⟨h1, h2⟩ := run_unset g cs _ o hrun
  unfold NodeInterp.computeWeights
  rw [if_neg]
  rcases h with h | h
  · rw [h1 rfl h]; simp
  · rw [h2 rfl h]; simp

/-- **C89** Cell search: without a source grid the empty vector of sizes is read; without a polygon the number of points is
read before it was written. -/
theorem C89_overlap_unset (g : Gels F) (o : Overlap F) :
    (o.gridSet = false → o.findSrcCellIndices g = .error .outOfBounds) ∧
    (o.gridSet = true → o.polySet = false → o.findSrcCellIndices g = .error .uninit) ∧
    (FindOverlap.new : Overlap F).gridSet = false ∧ (FindOverlap.new : Overlap F).polySet = false ∧
    (∀ d p c, (o.setSrcGrid d p c).gridSet = true ∧ (o.setSrcGrid d p c).polySet = o.polySet) ∧
    (∀ n c, (o.setPolygonPoints n c).polySet = true ∧ (o.setPolygonPoints n c).gridSet = o.gridSet) := by
  refine ⟨?_, ?_, rfl, rfl, fun _ _ _ => ⟨rfl, rfl⟩, fun _ _ => ⟨rfl, rfl⟩⟩
  · intro h
    unfold Overlap.findSrcCellIndices Overlap.findFloatIndexBoxOfPolygon
    rw [h]
    rfl
  · intro h h'
    unfold Overlap.findSrcCellIndices Overlap.findFloatIndexBoxOfPolygon
    rw [h, h']
    rfl

end

/-! ### Examples -/

/-- A careful sequence: the source grid is changed after `compute`, and the old table is applied to data of the old
size; then the weights are computed again. -/
def carefulOps : List (NodeOp ℚ) :=
  [.setDst ![1, 1] (fun i _ => ![3 / 2, 1] i), .setSrc ![3, 3] ![0, 0] sheared, .compute, .setSrc ![2, 2] ![0, 0] (fun i k => ![((k / 2 : Nat) : ℚ), ((k % 2 : Nat) : ℚ)] i),
    .apply [1, 2, 3, 4, 5, 6, 7, 8, 9] [0], .compute, .apply [1, 2, 3, 4] [0]]
example : Careful {} carefulOps := by
  simp [carefulOps, Careful, Fin.forall_fin_two]
example : (do let o ← runNodeOps gels2 (NodeInterp.new 5 (1 / 1000)) carefulOps; return o.weights.length) = .ok 0 := by decide +kernel

/-- Not careful: after a larger source grid was used, data of the size of the smaller grid set later is too short for the
old table. -/
example : (do let o ← runNodeOps gels2 (NodeInterp.new 5 (1 / 1000) : NodeInterp ℚ)
                [.setDst ![1, 1] (fun i _ => ![7 / 2, 3] i), .setSrc ![3, 3] ![0, 0] sheared, .compute,
                  .setSrc ![2, 2] ![0, 0] (fun i k => ![((k / 2 : Nat) : ℚ), ((k % 2 : Nat) : ℚ)] i), .apply [1, 2, 3, 4] [0]]
              return o.weights.length) = .error .outOfBounds := by decide +kernel

/-- No destination grid. -/
example : (do let o ← runNodeOps gels2 (NodeInterp.new 5 (1 / 1000) : NodeInterp ℚ) [.setSrc ![3, 3] ![0, 0] sheared, .compute]
              return o.weights.length) = .error .uninit := by decide +kernel

end Sg.Props
