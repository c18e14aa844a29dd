import Verif.Props.ConserveInterp
/-
Properties C60 to C63 and C65: caches, iteration over the weights, recomputation and memory safety.
-/
namespace Sg.Props
open Sg.LinearSolve Sg.Triangulate Sg.QuadIntersect Sg.Conserve Sg.Spec Sg.Plane MeasureTheory

section calls
set_option linter.unusedSectionVars false
variable {F : Type} [Zero F] [One F] [Add F] [Sub F] [Mul F] [Div F] [Neg F] [LT F] [DecidableLT F] [LE F] [DecidableLE F]
  [NatCast F]

/-! ### C60 -/

/-- What a new intersector finds for two edges. -/
def crossingFound (g : Gels F) (a0 a1 b0 b1 : Pt F) : Cxx (Option (Pt F)) :=
  ((Isect.new : Isect F).collectEdge g a0 a1 b0 b1).map Prod.snd

/-- What is found for two edges does not depend on the direction of the edges. -/
def DirectionFree (g : Gels F) (a0 a1 b0 b1 : Pt F) : Prop :=
  crossingFound g a1 a0 b0 b1 = crossingFound g a0 a1 b0 b1 ∧ crossingFound g a0 a1 b1 b0 = crossingFound g a0 a1 b0 b1 ∧
    crossingFound g a1 a0 b1 b0 = crossingFound g a0 a1 b0 b1

theorem crossingFound_eq {g : Gels F} (hg : ∀ r : GelsArgs F, (g r).a.length = r.a.length ∧ (g r).b.length = r.b.length)
    (a0 a1 b0 b1 : Pt F) : crossingFound g a0 a1 b0 b1 = .ok (edgeX g a0 a1 b0 b1) := by
  obtain ⟨sl, e, _⟩ := edgeX_ok g hg (Isect.new : Isect F) ready_new a0 a1 b0 b1
  rw [crossingFound, e]; rfl

/-- C60: for any arithmetic, if what is found for two edges does not depend on their directions, the weights are those
obtained with every intersection computed from scratch. -/
theorem C60_caches_partial (g : Gels F) (hg : ∀ r : GelsArgs F, (g r).a.length = r.a.length ∧ (g r).b.length = r.b.length)
    (sort : List (Pt F) → List (Pt F)) (mode : Mode) (o : Interp F) (h0 : o.weights = [])
    (ddims sdims per : Nat × Nat) (dx dy sx sy : List F)
    (hd : 1 ≤ ddims.1 ∧ 1 ≤ ddims.2) (hs : 1 ≤ sdims.1 ∧ 1 ≤ sdims.2)
    (hdx : ddims.1 * ddims.2 ≤ dx.length) (hdy : ddims.1 * ddims.2 ≤ dy.length)
    (hsx : sdims.1 * sdims.2 ≤ sx.length) (hsy : sdims.1 * sdims.2 ≤ sy.length)
    (hfree : ∀ i < cellCount ddims, ∀ j < cellCount sdims, ∀ k l : Fin 4,
      DirectionFree g (gridCell ddims dx dy i k) (gridCell ddims dx dy i (k + 1)) (gridCell sdims sx sy j l)
        (gridCell sdims sx sy j (l + 1))) :
    (setAndCompute g sort mode o ddims dx dy sdims per sx sy).map Interp.weights = (do
      let dst ← makeGrid ddims dx dy
      let src ← makeGrid sdims sx sy
      scratchTable g sort mode src dst) := by
  obtain ⟨dst, src, e1, e2, h1, h2, c1, c2, q1, q2, e⟩ := setAndCompute_eq g sort mode o ddims dx dy sdims per sx sy hd hs hdx
    hdy hsx hsy
  rw [e, e1, e2]
  simp only [bind, Except.bind]
  have hX : EdgesBy g dst src (ptAt dx dy) (ptAt sx sy)
      (fun key => edgeX g (ptAt dx dy key.1.1) (ptAt dx dy key.1.2) (ptAt sx sy key.2.1) (ptAt sx sy key.2.2)) := by
    intro i hi j hj k l
    have hf := hfree i (c1 ▸ hi) j (c2 ▸ hj) k l
    unfold DirectionFree at hf
    simp only [crossingFound_eq hg, Except.ok.injEq, ← q1, ← q2] at hf
    obtain ⟨f1, f2, f3⟩ := hf
    unfold sortPair
    split <;> split
    · exact f3
    · exact f1
    · exact f2
    · rfl
  rw [computeWeights_scratch hg h1 h2 hX sort mode { o with dst := some dst, src := some src } rfl rfl]
  cases ht : scratchTable g sort mode src dst with
  | error u => rfl
  | ok t =>
    show Except.ok _ = _
    congr 1
    show t.foldl _ o.weights = t
    rw [h0, foldl_insert]
    · rfl
    · rw [List.nil_append]
      exact scratchTable_sorted ht

/-! ### C61 -/

/-- C61, the part that holds: if what happens at the end iterator is harmless, then for every object that has weights,
`reset` and then `get` and `next` until the end is told deliver the stored triples, each once and in the order of the
table (increasing destination cell, see C59_table), and the object is then as after `reset`. -/
theorem C61_iteration_partial (g : Gels F) (sort : List (Pt F) → List (Pt F)) (mode : Mode) (o : Interp F)
    (ho : Built g sort mode o) (hne : o.weights ≠ []) :
    ∃ o0, o.reset .lenient = .ok o0 ∧ o0.weights = o.weights ∧ Drains .lenient o0 (triples o.weights) o0 := by
  cases hw : o.weights with
  | nil => exact absurd hw hne
  | cons e t =>
    have hr : o.reset .lenient = .ok { o with it := some e.1, it2 := some 0 } := by
      simp only [Interp.reset, hw, List.head?_cons, Option.map_some, beginAt, bind, Except.bind, pure, Except.pure]
    refine ⟨_, hr, hw, ?_⟩
    have := drains_from o (built_good ho) _ hr t [] e.1 e.2 (by rw [hw]; rfl) [] e.2 rfl
      ((built_good ho).nonempty e (by rw [hw]; exact List.mem_cons_self ..))
    simpa [triples] using this

/-- C61 is false by the letter of the standard: `next` never reports the end without undefined behaviour. -/
theorem C61_end_refuted (o o' : Interp F) : o.next .strict ≠ .ok (o', 1) := by
  intro h
  unfold Interp.next at h
  simp only [bind, Except.bind, pure, Except.pure] at h
  split at h
  · cases h
  split at h
  · cases h
  split at h
  · rename_i v hc _ _
    cases ha : o.weights.after v.1 with
    | none => rw [ha] at h; simp [beginAt] at h
    | some k => rw [ha] at h; simp [beginAt] at h
  · simp at h

/-! ### C62 -/

/-- C62 is false: creating an object is already undefined behaviour by the letter of the standard, and without weights
`reset` is so as well; `next` is so even if it is tolerated to take the begin of what the end iterator points to. -/
theorem C62_refuted :
    (Conserve.new .strict : Cxx (Interp F)) = .error .badIterator ∧
    ∀ o : Interp F, o.weights = [] → o.reset .strict = .error .badIterator ∧
      ∀ em o', o.reset em = .ok o' → o'.next em = .error .badIterator ∧ o'.get = .error .badIterator := by
  refine ⟨rfl, ?_⟩
  intro o h
  refine ⟨?_, ?_⟩
  · simp [Interp.reset, h, beginAt, bind, Except.bind]
  · intro em o' hr
    have : o'.it = none := by
      unfold Interp.reset at hr
      simp only [bind, Except.bind, pure, Except.pure] at hr
      split at hr
      · cases hr
      · cases hr; simp [h]
    have hc : o'.current = .error .badIterator := by
      unfold Interp.current
      rw [this]
    simp [Interp.next, Interp.get, hc, bind, Except.bind]

/-- C62, the part that holds: if taking that begin is tolerated, objects can be created and `reset` on an object without
weights changes no weight. -/
theorem C62_tolerated_partial :
    (∃ o : Interp F, Conserve.new .lenient = .ok o ∧ o.weights = []) ∧
    ∀ o : Interp F, ∃ o', o.reset .lenient = .ok o' ∧ o'.weights = o.weights := by
  refine ⟨⟨_, rfl, rfl⟩, ?_⟩
  intro o
  cases hw : o.weights with
  | nil => exact ⟨{ o with it := none, it2 := none }, by simp [Interp.reset, hw, beginAt, bind, Except.bind, pure, Except.pure], hw⟩
  | cons e t =>
    exact ⟨{ o with it := some e.1, it2 := some 0 },
      by simp [Interp.reset, hw, beginAt, bind, Except.bind, pure, Except.pure], hw⟩

/-! ### C63 -/

/-- C63 is false: entries stay, whatever grids are set afterwards. -/
theorem C63_keeps_old (g : Gels F) (sort : List (Pt F) → List (Pt F)) (mode : Mode) (o o' : Interp F)
    (ho : Built g sort mode o) (ddims sdims per : Nat × Nat) (dx dy sx sy : List F)
    (h : setAndCompute g sort mode o ddims dx dy sdims per sx sy = .ok o') : ∀ e ∈ o.weights, e ∈ o'.weights := by
  unfold setAndCompute at h
  simp only [bind, Except.bind] at h
  split at h
  · cases h
  rename_i o1 h1
  split at h
  · cases h
  rename_i o2 h2
  have hw : o2.weights = o.weights := by rw [(setSrc_weights h2).1, (setDst_weights h1).1]
  have := (computeWeights_good h (by rw [hw]; exact built_good ho)).2.1
  rw [hw] at this
  exact this

/-! ### C65 -/

/-- C65: for any arithmetic the only undefined behaviour of the computation of the weights is the one of the
triangulation of some points. -/
theorem C65_only_triangulation (g : Gels F) (hg : ∀ r : GelsArgs F, (g r).a.length = r.a.length ∧ (g r).b.length = r.b.length)
    (sort : List (Pt F) → List (Pt F)) (mode : Mode) (o : Interp F) (ddims sdims per : Nat × Nat) (dx dy sx sy : List F)
    (hd : 1 ≤ ddims.1 ∧ 1 ≤ ddims.2) (hs : 1 ≤ sdims.1 ∧ 1 ≤ sdims.2)
    (hdx : ddims.1 * ddims.2 ≤ dx.length) (hdy : ddims.1 * ddims.2 ≤ dy.length)
    (hsx : sdims.1 * sdims.2 ≤ sx.length) (hsy : sdims.1 * sdims.2 ≤ sy.length) :
    (∃ o', setAndCompute g sort mode o ddims dx dy sdims per sx sy = .ok o') ∨
      ∃ e, setAndCompute g sort mode o ddims dx dy sdims per sx sy = .error e ∧
        ∃ pts, hullArea mode (sort pts) = .error e := by
  obtain ⟨dst, src, -, -, h1, h2, -, -, -, -, e⟩ := setAndCompute_eq g sort mode o ddims dx dy sdims per sx sy hd hs hdx
    hdy hsx hsy
  rw [e]
  exact computeWeights_safe hg sort mode h1 h2 { o with dst := some dst, src := some src } rfl rfl

end calls

/-! ### Exact arithmetic -/

section exact
variable (g : Gels ℝ) (hg : GelsContract g) (sort : List P2 → List P2) (hsort : ∀ l, IsStdSort l (sort l)) (mode : Mode)
  (ddims sdims per : Nat × Nat) (dx dy sx sy : List ℝ)
  (hd : 1 ≤ ddims.1 ∧ 1 ≤ ddims.2) (hs : 1 ≤ sdims.1 ∧ 1 ≤ sdims.2)
  (hdx : ddims.1 * ddims.2 ≤ dx.length) (hdy : ddims.1 * ddims.2 ≤ dy.length)
  (hsx : sdims.1 * sdims.2 ≤ sx.length) (hsy : sdims.1 * sdims.2 ≤ sy.length)
include hg hd hs hdx hdy hsx hsy

/-- C60 in exact arithmetic: if no decision about two cells is closer than the tolerance, the weights are those obtained
with every intersection computed from scratch. -/
theorem C60_caches_clear (o : Interp ℝ) (h0 : o.weights = [])
    (hc : ∀ i < cellCount ddims, ∀ j < cellCount sdims, ClearPair (gridCell ddims dx dy i) (gridCell sdims sx sy j)) :
    (setAndCompute g sort mode o ddims dx dy sdims per sx sy).map Interp.weights = (do
      let dst ← makeGrid ddims dx dy
      let src ← makeGrid sdims sx sy
      scratchTable g sort mode src dst) := by
  obtain ⟨dst, src, e1, e2, h1, h2, c1, c2, q1, q2, e⟩ := setAndCompute_eq g sort mode o ddims dx dy sdims per sx sy hd hs hdx
    hdy hsx hsy
  rw [e, e1, e2]
  simp only [bind, Except.bind]
  rw [← q1, ← q2, ← c1, ← c2] at hc
  rw [computeWeights_scratch (keepsSizes hg) h1 h2 (edgesBy hg hc) sort mode { o with dst := some dst, src := some src } rfl rfl]
  cases ht : scratchTable g sort mode src dst with
  | error u => rfl
  | ok t =>
    show Except.ok _ = _
    congr 1
    show t.foldl _ o.weights = t
    rw [h0, foldl_insert]
    · rfl
    · rw [List.nil_append]
      exact scratchTable_sorted ht

variable (hc : ∀ i < cellCount ddims, ∀ j < cellCount sdims, CleanCells (gridCell ddims dx dy i) (gridCell sdims sx sy j))
include hsort hc

/-- C63 exactly: after new grids are set and the weights are computed, a destination cell that had weights before has
the old ones, the others have the overlap fractions of the new grids. -/
theorem C63_weights_partial (o o' : Interp ℝ) (ho : Built g sort mode o)
    (h : setAndCompute g sort mode o ddims dx dy sdims per sx sy = .ok o') (i : Nat) (hi : i < cellCount ddims) (j : Nat)
    (hj : j < cellCount sdims) :
    ((∃ l, (i, l) ∈ o.weights) → weightOf o'.weights i j = weightOf o.weights i j) ∧
    ((∀ l, (i, l) ∉ o.weights) → weightOf o'.weights i j =
      overlapFraction (gridCell ddims dx dy i) (gridCell sdims sx sy j)) := by
  obtain ⟨dst, src, -, -, h1, h2, c1, c2, q1, q2, e⟩ := setAndCompute_eq g sort mode o ddims dx dy sdims per sx sy hd hs hdx
    hdy hsx hsy
  rw [e] at h
  rw [← q1, ← q2, ← c1, ← c2] at hc
  rw [← c1] at hi
  rw [← c2] at hj
  rw [← q1, ← q2]
  rw [computeWeights_scratch (keepsSizes hg) h1 h2 (edgesBy hg fun i hi j hj => (hc i hi j hj).clear) sort mode
    { o with dst := some dst, src := some src } rfl rfl] at h
  cases ht : scratchTable g sort mode src dst with
  | error u => rw [ht] at h; cases h
  | ok t =>
    rw [ht] at h
    cases h
    have hT := scratchTable_spec hg h1 h2 hsort hc (by omega) ht
    have hl := lookup_foldl_insert t i o.weights (built_good ho).sorted hT.sorted
    dsimp only
    cases hold : o.weights.lookup i with
    | some l =>
      rw [hold] at hl
      obtain ⟨l1, l2, hw, -⟩ := List.lookup_eq_some_iff.mp hold
      refine ⟨fun _ => by rw [weightOf, weightOf, hl, hold], fun hno => absurd ?_ (hno l)⟩
      rw [hw]; simp
    | none =>
      rw [hold] at hl
      refine ⟨?_, fun _ => by rw [← hT.weightOf hi hj, weightOf, weightOf, hl]⟩
      rintro ⟨l, hm⟩
      exfalso
      have := List.lookup_eq_none_iff.mp hold (i, l) hm
      simp at this

/-- C65, the part that holds: if the vector of points keeps its buffer and every pair of cells either has an overlap with
interior or has at most one point in common, the weights are computed without undefined behaviour. -/
theorem C65_safe_partial (o : Interp ℝ)
    (hover : ∀ i < cellCount ddims, ∀ j < cellCount sdims,
      (interior (quadRegion (gridCell ddims dx dy i) ∩ quadRegion (gridCell sdims sx sy j))).Nonempty ∨
      (quadRegion (gridCell ddims dx dy i) ∩ quadRegion (gridCell sdims sx sy j)).Subsingleton)
    (hn : 0 < cellCount sdims) :
    ∃ o', setAndCompute g sort .keptBuffer o ddims dx dy sdims per sx sy = .ok o' := by
  obtain ⟨dst, src, -, -, h1, h2, c1, c2, q1, q2, e⟩ := setAndCompute_eq g sort .keptBuffer o ddims dx dy sdims per sx sy hd hs
    hdx hdy hsx hsy
  rw [e]
  rw [← q1, ← q2, ← c1, ← c2] at hc hover
  rw [← c2] at hn
  rw [computeWeights_scratch (keepsSizes hg) h1 h2 (edgesBy hg fun i hi j hj => (hc i hi j hj).clear) sort .keptBuffer
    { o with dst := some dst, src := some src } rfl rfl]
  obtain ⟨t, ht⟩ := scratchTable_safe hg h1 h2 hsort hc hover hn
  rw [ht]
  exact ⟨_, rfl⟩

end exact

/-! ### Runs in rational arithmetic -/

open Sg.Witness

/-- C60 is false near the tolerance: two destination cells side by side, a source cell across both whose upper edge is
1e-12 below theirs.  The crossing of the common edge with the upper edge is computed for the first cell, from the end
where it is accepted, and remembered for the second, which would compute it from the other end and reject it. -/
theorem C60_refuted : ∃ (g : Gels ℚ) (sort : List (Pt ℚ) → List (Pt ℚ)) (o o' : Interp ℚ) (dst src : Grid ℚ)
    (t : List (Nat × List (Nat × ℚ))),
    GelsContract g ∧ (∀ l, IsStdSort l (sort l)) ∧ Conserve.new .lenient = .ok o ∧
    o.setDstGrid (3, 2) [0, 0, 1, 1, 2, 2] [0, 1, 0, 1, 0, 1] = .ok { o with dst := some dst } ∧
    o.setSrcGrid (2, 2) (0, 0) [1/2, 1/2, 3/2, 3/2] [1/2, 1 - 1/1000000000000, 1/2, 1 - 1/1000000000000] =
      .ok { o with src := some src } ∧
    Interp.computeWeights g sort .keptBuffer { o with dst := some dst, src := some src } = .ok o' ∧
    scratchTable g sort .keptBuffer src dst = .ok t ∧
    weightOf o'.weights 1 0 = 499999999999/2000000000000 ∧ weightOf t 1 0 = 499999999999/4000000000000 := by
  refine ⟨cramerGels, stdSort, { src := none, dst := none, weights := [], it := none, it2 := none },
    { src := some ⟨(2, 2), [1/2, 1/2, 1/2, 1 - 1/1000000000000, 3/2, 1/2, 3/2, 1 - 1/1000000000000]⟩,
      dst := some ⟨(3, 2), [0, 0, 0, 1, 1, 0, 1, 1, 2, 0, 2, 1]⟩,
      weights := [(0, [(0, 499999999999/2000000000000)]), (1, [(0, 499999999999/2000000000000)])], it := none, it2 := none },
    ⟨(3, 2), [0, 0, 0, 1, 1, 0, 1, 1, 2, 0, 2, 1]⟩,
    ⟨(2, 2), [1/2, 1/2, 1/2, 1 - 1/1000000000000, 3/2, 1/2, 3/2, 1 - 1/1000000000000]⟩,
    [(0, [(0, 499999999999/2000000000000)]), (1, [(0, 499999999999/4000000000000)])],
    cramerGels_contract, stdSort_ok, rfl, ?_, ?_, ?_, ?_, ?_, ?_⟩ <;> decide +kernel

/-- C63 is false: a destination cell of one unit square and the source cell the same, then a destination cell four times
as large: the weight stays 1, where a new object gives 1/4. -/
theorem C63_refuted : ∃ (g : Gels ℚ) (sort : List (Pt ℚ) → List (Pt ℚ)) (o o1 o2 o3 : Interp ℚ),
    GelsContract g ∧ (∀ l, IsStdSort l (sort l)) ∧ Conserve.new .lenient = .ok o ∧
    setAndCompute g sort .keptBuffer o (2, 2) [0, 0, 1, 1] [0, 1, 0, 1] (2, 2) (0, 0) [0, 0, 1, 1] [0, 1, 0, 1] = .ok o1 ∧
    setAndCompute g sort .keptBuffer o1 (2, 2) [0, 0, 2, 2] [0, 2, 0, 2] (2, 2) (0, 0) [0, 0, 1, 1] [0, 1, 0, 1] = .ok o2 ∧
    setAndCompute g sort .keptBuffer o (2, 2) [0, 0, 2, 2] [0, 2, 0, 2] (2, 2) (0, 0) [0, 0, 1, 1] [0, 1, 0, 1] = .ok o3 ∧
    weightOf o2.weights 0 0 = 1 ∧ weightOf o3.weights 0 0 = 1/4 := by
  refine ⟨cramerGels, stdSort, { src := none, dst := none, weights := [], it := none, it2 := none },
    { src := some ⟨(2, 2), [0, 0, 0, 1, 1, 0, 1, 1]⟩, dst := some ⟨(2, 2), [0, 0, 0, 1, 1, 0, 1, 1]⟩,
      weights := [(0, [(0, 1)])], it := none, it2 := none },
    { src := some ⟨(2, 2), [0, 0, 0, 1, 1, 0, 1, 1]⟩, dst := some ⟨(2, 2), [0, 0, 0, 2, 2, 0, 2, 2]⟩,
      weights := [(0, [(0, 1)])], it := none, it2 := none },
    { src := some ⟨(2, 2), [0, 0, 0, 1, 1, 0, 1, 1]⟩, dst := some ⟨(2, 2), [0, 0, 0, 2, 2, 0, 2, 2]⟩,
      weights := [(0, [(0, 1/4)])], it := none, it2 := none },
    cramerGels_contract, stdSort_ok, rfl, ?_, ?_, ?_, ?_, ?_⟩ <;> decide +kernel

/-- C65 is false: a source cell that touches the destination cell along a part of an edge makes the triangulation read
past its points, even if the vector keeps its buffer. -/
theorem C65_refuted : ∃ (g : Gels ℚ) (sort : List (Pt ℚ) → List (Pt ℚ)) (o : Interp ℚ),
    GelsContract g ∧ (∀ l, IsStdSort l (sort l)) ∧ Conserve.new .lenient = .ok o ∧ ∀ mode,
    setAndCompute g sort mode o (2, 2) [0, 0, 4, 4] [0, 4, 0, 4] (2, 2) (0, 0) [4, 4, 6, 6] [1, 3, 1, 3] =
      .error .outOfBounds := by
  refine ⟨cramerGels, stdSort, { src := none, dst := none, weights := [], it := none, it2 := none }, cramerGels_contract,
    stdSort_ok, rfl, ?_⟩
  intro mode
  cases mode <;> decide +kernel

/-- C65 by the letter of the standard is false even for two equal cells, whose corners are collected more than once. -/
theorem C65_equal_cells_refuted : ∃ (g : Gels ℚ) (sort : List (Pt ℚ) → List (Pt ℚ)) (o : Interp ℚ),
    GelsContract g ∧ (∀ l, IsStdSort l (sort l)) ∧ Conserve.new .lenient = .ok o ∧
    setAndCompute g sort .standard o (2, 2) [0, 0, 4, 4] [0, 4, 0, 4] (2, 2) (0, 0) [0, 0, 4, 4] [0, 4, 0, 4] =
      .error .outOfBounds := by
  refine ⟨cramerGels, stdSort, { src := none, dst := none, weights := [], it := none, it2 := none }, cramerGels_contract,
    stdSort_ok, rfl, ?_⟩
  decide +kernel

/-! ### Cases that meet the hypotheses -/

instance (g : Gels ℚ) (a0 a1 b0 b1 : Pt ℚ) : Decidable (DirectionFree g a0 a1 b0 b1) := by
  unfold DirectionFree
  infer_instance

/-- C60: for two squares that overlap the directions of the edges do not matter. -/
example : ∀ i < cellCount (2, 2), ∀ j < cellCount (2, 2), ∀ k l : Fin 4,
    DirectionFree cramerGels (gridCell (2, 2) [(0 : ℚ), 0, 2, 2] [0, 2, 0, 2] i k)
      (gridCell (2, 2) [(0 : ℚ), 0, 2, 2] [0, 2, 0, 2] i (k + 1)) (gridCell (2, 2) [(1 : ℚ), 1, 3, 3] [1, 3, 1, 3] j l)
      (gridCell (2, 2) [(1 : ℚ), 1, 3, 3] [1, 3, 1, 3] j (l + 1)) := by
  decide +kernel

/-- C61 and C63: an object with weights. -/
example : ∃ o : Interp ℚ, Built cramerGels stdSort .keptBuffer o ∧ o.weights ≠ [] := by
  obtain ⟨o1, h1⟩ : ∃ o1 : Interp ℚ, Conserve.new .lenient = .ok o1 := ⟨_, rfl⟩
  have e2 : ∃ o2, o1.setDstGrid (2, 2) [0, 0, 2, 2] [0, 2, 0, 2] = .ok o2 := by cases h1; exact ⟨_, rfl⟩
  obtain ⟨o2, h2⟩ := e2
  have e3 : ∃ o3, o2.setSrcGrid (2, 2) (0, 0) [0, 0, 1, 1] [0, 1, 0, 1] = .ok o3 := by cases h1; cases h2; exact ⟨_, rfl⟩
  obtain ⟨o3, h3⟩ := e3
  have e4 : o3.computeWeights cramerGels stdSort .keptBuffer = .ok { o3 with weights := [(0, [(0, 1/4)])] } := by
    cases h1; cases h2; cases h3
    decide +kernel
  exact ⟨_, .weights (.src (.dst (.new h1) h2) h3) e4, by simp⟩

end Sg.Props
