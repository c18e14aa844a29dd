import Verif.Proof.ConserveExact
import Verif.Proof.ConserveApply
import Verif.Proof.Witness
import Mathlib.Algebra.BigOperators.Group.Finset.Sigma
/-
Properties C56 to C65: conservative interpolation.
-/
namespace Sg.Props
open Sg.LinearSolve Sg.Triangulate Sg.QuadIntersect Sg.Conserve Sg.Spec Sg.Plane MeasureTheory

/-! ### What a user does -/

section calls
set_option linter.unusedSectionVars false
variable {F : Type} [Zero F] [One F] [Add F] [Sub F] [Mul F] [Div F] [Neg F] [LT F] [DecidableLT F] [LE F] [DecidableLE F]
  [NatCast F]

/-- Both grids are set, then the weights are computed. -/
def setAndCompute (g : Gels F) (sort : List (Pt F) → List (Pt F)) (mode : Mode) (o : Interp F)
    (ddims : Nat × Nat) (dx dy : List F) (sdims periodicity : Nat × Nat) (sx sy : List F) : Cxx (Interp F) := do
  let o ← o.setDstGrid ddims dx dy
  let o ← o.setSrcGrid sdims periodicity sx sy
  o.computeWeights g sort mode

/-- The objects that calls in any order lead to.  Before the first weights there is no entry for the iterators to point
to; `lenient` is the reading of the constructor that makes any object at all (see C62). -/
inductive Built (g : Gels F) (sort : List (Pt F) → List (Pt F)) (mode : Mode) : Interp F → Prop
  | new {o : Interp F} : Conserve.new .lenient = .ok o → Built g sort mode o
  | dst {o o' : Interp F} {dims : Nat × Nat} {x y : List F} : Built g sort mode o → o.setDstGrid dims x y = .ok o' →
      Built g sort mode o'
  | src {o o' : Interp F} {dims per : Nat × Nat} {x y : List F} : Built g sort mode o → o.setSrcGrid dims per x y = .ok o' →
      Built g sort mode o'
  | weights {o o' : Interp F} : Built g sort mode o → o.computeWeights g sort mode = .ok o' → Built g sort mode o'
  | reset {o o' : Interp F} : Built g sort mode o → o.reset .lenient = .ok o' → Built g sort mode o'
  | next {o o' : Interp F} {r : Int} : Built g sort mode o → o.next .lenient = .ok (o', r) → Built g sort mode o'

theorem setDst_weights {o o' : Interp F} {dims : Nat × Nat} {x y : List F} (h : o.setDstGrid dims x y = .ok o') :
    o'.weights = o.weights ∧ o'.src = o.src := by
  unfold Interp.setDstGrid at h
  simp only [bind, Except.bind, pure, Except.pure] at h
  split at h
  · cases h
  · cases h; exact ⟨rfl, rfl⟩

theorem setSrc_weights {o o' : Interp F} {dims per : Nat × Nat} {x y : List F} (h : o.setSrcGrid dims per x y = .ok o') :
    o'.weights = o.weights ∧ o'.dst = o.dst := by
  unfold Interp.setSrcGrid at h
  simp only [bind, Except.bind, pure, Except.pure] at h
  split at h
  · cases h
  · cases h; exact ⟨rfl, rfl⟩

theorem reset_weights {em : EndMode} {o o' : Interp F} (h : o.reset em = .ok o') : o'.weights = o.weights := by
  unfold Interp.reset at h
  simp only [bind, Except.bind, pure, Except.pure] at h
  split at h
  · cases h
  · cases h; rfl

theorem next_weights {em : EndMode} {o o' : Interp F} {r : Int} (h : o.next em = .ok (o', r)) : o'.weights = o.weights := by
  unfold Interp.next at h
  simp only [bind, Except.bind, pure, Except.pure] at h
  split at h
  · cases h
  split at h
  · cases h
  split at h
  · split at h
    · cases h
    split at h
    · split at h
      · cases h
      · rename_i hr
        cases h
        rw [reset_weights hr]
    · cases h; rfl
  · cases h; rfl

theorem built_good {g : Gels F} {sort : List (Pt F) → List (Pt F)} {mode : Mode} {o : Interp F} (h : Built g sort mode o) :
    Good o.weights := by
  induction h with
  | new h => rw [reset_weights h]; exact good_nil
  | dst _ h ih => rw [(setDst_weights h).1]; exact ih
  | src _ h ih => rw [(setSrc_weights h).1]; exact ih
  | weights _ h ih => exact (computeWeights_good h ih).1
  | reset _ h ih => rw [reset_weights h]; exact ih
  | next _ h ih => rw [next_weights h]; exact ih

/-! ### C64 -/

theorem cellQuad_eq (gr : Grid F) (dims : Nat × Nat) (x y : List F) (h : gr.nodeDims = dims) (i : Nat) :
    gr.cellQuad (ptAt x y) i = gridCell dims x y i := by
  subst h
  funext k
  have e : ∀ a b : Nat, gr.nodeDims.2 * a + b = a * gr.nodeDims.2 + b := fun a b => by rw [Nat.mul_comm]
  fin_cases k <;> simp only [Grid.cellQuad, Grid.cellNode, ptAt, gridCell, gridCellAt, gridNode, offset, e] <;> rfl

/-- What is stored when a grid is set. -/
theorem makeGrid_has (dims : Nat × Nat) (h1 : 1 ≤ dims.1 ∧ 1 ≤ dims.2) (x y : List F)
    (hx : dims.1 * dims.2 ≤ x.length) (hy : dims.1 * dims.2 ≤ y.length) :
    ∃ gr, makeGrid dims x y = .ok gr ∧ gr.nodeDims = dims ∧ gr.Has (ptAt x y) ∧ gr.numCells = cellCount dims := by
  obtain ⟨gr, e, hd, _, hr⟩ := makeGrid_ok dims x y hx hy
  refine ⟨gr, e, hd, ⟨by rw [hd]; exact h1, by rw [hd]; exact hr⟩, ?_⟩
  simp [Grid.numCells, Grid.cellDims, cellCount, hd]

/-- C64: a grid with at least two nodes per axis has (n-1)(m-1) cells; for the cell with low corner `(a, b)` the nodes
`(a, b)`, `(a+1, b)`, `(a+1, b+1)`, `(a, b+1)` are read, all of them inside the arrays. -/
theorem C64_dst_cells (o : Interp F) (dims : Nat × Nat) (h1 : 2 ≤ dims.1 ∧ 2 ≤ dims.2) (x y : List F)
    (hx : dims.1 * dims.2 ≤ x.length) (hy : dims.1 * dims.2 ≤ y.length) :
    ∃ o' gr, o.setDstGrid dims x y = .ok o' ∧ o'.dst = some gr ∧ gr.numCells = (dims.1 - 1) * (dims.2 - 1) ∧
      ∀ a b, a + 1 < dims.1 → b + 1 < dims.2 → a * (dims.2 - 1) + b < gr.numCells ∧
        ∃ nodes, gr.quadCoord (a * (dims.2 - 1) + b) = .ok (nodes, gridCellAt dims x y a b) ∧
          ∀ k, nodes k < dims.1 * dims.2 := by
  obtain ⟨gr, e, hd, hh, hn⟩ := makeGrid_has dims (by omega) x y hx hy
  refine ⟨{ o with dst := some gr }, gr, by simp only [Interp.setDstGrid, e]; rfl, rfl, hn, ?_⟩
  intro a b ha hb
  have hlt : a * (dims.2 - 1) + b < gr.numCells := by
    rw [hn, cellCount]
    calc a * (dims.2 - 1) + b < a * (dims.2 - 1) + (dims.2 - 1) := by omega
      _ = (a + 1) * (dims.2 - 1) := by ring
      _ ≤ _ := Nat.mul_le_mul_right _ (by omega)
  refine ⟨hlt, gr.cellNode (a * (dims.2 - 1) + b), ?_, ?_⟩
  · rw [gr.quadCoord_ok _ hh hlt, cellQuad_eq gr dims x y hd]
    have e1 : (a * (dims.2 - 1) + b) / (dims.2 - 1) = a := by
      rw [Nat.add_comm, Nat.add_mul_div_right _ _ (by omega), Nat.div_eq_of_lt (by omega), Nat.zero_add]
    have e2 : (a * (dims.2 - 1) + b) % (dims.2 - 1) = b := by
      rw [Nat.add_comm, Nat.add_mul_mod_self_right, Nat.mod_eq_of_lt (by omega)]
    rw [gridCell, e1, e2]
  · intro k
    have := gr.cellNode_lt hlt k
    rw [hd] at this
    exact this

/-- C64 for the source grid; the periodicity makes no difference. -/
theorem C64_src_cells (o : Interp F) (dims per : Nat × Nat) (h1 : 2 ≤ dims.1 ∧ 2 ≤ dims.2) (x y : List F)
    (hx : dims.1 * dims.2 ≤ x.length) (hy : dims.1 * dims.2 ≤ y.length) :
    ∃ o' gr, o.setSrcGrid dims per x y = .ok o' ∧ o'.src = some gr ∧ gr.numCells = (dims.1 - 1) * (dims.2 - 1) ∧
      ∀ a b, a + 1 < dims.1 → b + 1 < dims.2 → a * (dims.2 - 1) + b < gr.numCells ∧
        ∃ nodes, gr.quadCoord (a * (dims.2 - 1) + b) = .ok (nodes, gridCellAt dims x y a b) ∧
          ∀ k, nodes k < dims.1 * dims.2 := by
  obtain ⟨o', gr, e, hd, hrest⟩ := C64_dst_cells { o with dst := o.src } dims h1 x y hx hy
  unfold Interp.setDstGrid at e
  simp only [bind, Except.bind, pure, Except.pure] at e
  cases hm : makeGrid dims x y with
  | error u => rw [hm] at e; cases e
  | ok gr' =>
    rw [hm] at e
    cases e
    cases hd
    exact ⟨{ o with src := some gr }, gr, by simp only [Interp.setSrcGrid, hm]; rfl, rfl, hrest⟩

/-- C64: cell 1 of a grid of three by three nodes. -/
example : gridCell (3, 3) [(0 : ℚ), 0, 0, 1, 1, 1, 2, 2, 2] [0, 1, 2, 0, 1, 2, 0, 1, 2] 1 0 = (0, 1) ∧
    gridCell (3, 3) [(0 : ℚ), 0, 0, 1, 1, 1, 2, 2, 2] [0, 1, 2, 0, 1, 2, 0, 1, 2] 1 2 = (1, 2) := by decide +kernel

/-- The calls of `setAndCompute` on grids that are given completely. -/
theorem setAndCompute_eq (g : Gels F) (sort : List (Pt F) → List (Pt F)) (mode : Mode) (o : Interp F)
    (ddims : Nat × Nat) (dx dy : List F) (sdims per : Nat × Nat) (sx sy : List F)
    (hd : 1 ≤ ddims.1 ∧ 1 ≤ ddims.2) (hs : 1 ≤ sdims.1 ∧ 1 ≤ sdims.2)
    (hdx : ddims.1 * ddims.2 ≤ dx.length) (hdy : ddims.1 * ddims.2 ≤ dy.length)
    (hsx : sdims.1 * sdims.2 ≤ sx.length) (hsy : sdims.1 * sdims.2 ≤ sy.length) :
    ∃ dst src : Grid F, makeGrid ddims dx dy = .ok dst ∧ makeGrid sdims sx sy = .ok src ∧
      dst.Has (ptAt dx dy) ∧ src.Has (ptAt sx sy) ∧
      dst.numCells = cellCount ddims ∧ src.numCells = cellCount sdims ∧
      dst.cellQuad (ptAt dx dy) = gridCell ddims dx dy ∧ src.cellQuad (ptAt sx sy) = gridCell sdims sx sy ∧
      setAndCompute g sort mode o ddims dx dy sdims per sx sy =
        Interp.computeWeights g sort mode { o with dst := some dst, src := some src } := by
  obtain ⟨dst, e, n1, h1, c1⟩ := makeGrid_has ddims hd dx dy hdx hdy
  obtain ⟨src, e', n2, h2, c2⟩ := makeGrid_has sdims hs sx sy hsx hsy
  refine ⟨dst, src, e, e', h1, h2, c1, c2, funext fun i => cellQuad_eq dst _ _ _ n1 i,
    funext fun i => cellQuad_eq src _ _ _ n2 i, ?_⟩
  simp only [setAndCompute, Interp.setDstGrid, Interp.setSrcGrid, e, e', bind, Except.bind, pure, Except.pure]

/-! ### C59 -/

/-- C59: whatever calls led to the object, its table has each destination cell at most once, in increasing order, with at
least one weight. -/
theorem C59_table (g : Gels F) (sort : List (Pt F) → List (Pt F)) (mode : Mode) (o : Interp F) (h : Built g sort mode o) :
    o.weights.Pairwise (fun a b => a.1 < b.1) ∧ ∀ e ∈ o.weights, e.2 ≠ [] :=
  ⟨(built_good h).sorted, (built_good h).nonempty⟩

/-- C59: if the arrays have an entry for each cell in the table, `apply` sets each destination cell that has weights to
the sum of weight times source value, taken from 0 in the order of the table, and leaves the other entries alone. -/
theorem C59_apply (g : Gels F) (sort : List (Pt F) → List (Pt F)) (mode : Mode) (o : Interp F) (ho : Built g sort mode o)
    (srcData dstData : List F)
    (h : ∀ e ∈ o.weights, e.1 < dstData.length ∧ ∀ p ∈ e.2, p.1 < srcData.length) :
    ∃ d', o.apply srcData dstData = .ok d' ∧ d'.length = dstData.length ∧
      (∀ i l, (i, l) ∈ o.weights → d'[i]? = some (weightedSum (fun k => srcData.getD k 0) l)) ∧
      ∀ i, (∀ l, (i, l) ∉ o.weights) → d'[i]? = dstData[i]? := by
  obtain ⟨d', e, hl, hi⟩ := apply_ok o srcData dstData (built_good ho).sorted h
  refine ⟨d', e, hl, ?_, ?_⟩
  · intro i l hm
    rw [hi]
    obtain ⟨l1, l2, hw⟩ := List.append_of_mem hm
    have : o.weights.lookup i = some l := by
      rw [List.lookup_eq_some_iff]
      refine ⟨l1, l2, hw, ?_⟩
      intro p hp
      have hs := (built_good ho).sorted
      rw [hw] at hs
      have := (List.pairwise_append.mp hs).2.2 p hp (i, l) (List.mem_cons_self ..)
      simp; omega
    rw [this]
  · intro i hno
    rw [hi]
    have : o.weights.lookup i = none := by
      rw [List.lookup_eq_none_iff]
      intro p hp
      by_contra hc
      have : i = p.1 := by simpa using hc
      exact hno p.2 (by rw [this]; exact hp)
    rw [this]

end calls

section linear
variable {K : Type} [Field K] [LinearOrder K]

theorem foldl_linear (l : List (Nat × K)) (u v : Nat → K) (α β : K) : ∀ a b : K,
    l.foldl (fun acc p => acc + p.2 * (α * u p.1 + β * v p.1)) (α * a + β * b) =
      α * l.foldl (fun acc p => acc + p.2 * u p.1) a + β * l.foldl (fun acc p => acc + p.2 * v p.1) b := by
  induction l with
  | nil => intro a b; rfl
  | cons p l ih =>
    intro a b
    simp only [List.foldl_cons]
    rw [← ih]
    congr 1
    ring

/-- C59: `apply` is linear in the source data: for each destination cell with weights the result for a combination of
two source fields is the combination of the results. -/
theorem C59_linear (g : Gels K) (sort : List (Pt K) → List (Pt K)) (mode : Mode) (o : Interp K) (ho : Built g sort mode o)
    (s1 s2 s dstData : List K) (α β : K)
    (h : ∀ e ∈ o.weights, e.1 < dstData.length ∧ ∀ p ∈ e.2, p.1 < s1.length ∧ p.1 < s2.length ∧ p.1 < s.length)
    (hs : ∀ k, s.getD k 0 = α * s1.getD k 0 + β * s2.getD k 0) :
    ∃ d1 d2 d, o.apply s1 dstData = .ok d1 ∧ o.apply s2 dstData = .ok d2 ∧ o.apply s dstData = .ok d ∧
      ∀ i l, (i, l) ∈ o.weights → ∃ a b, d1[i]? = some a ∧ d2[i]? = some b ∧ d[i]? = some (α * a + β * b) := by
  obtain ⟨d1, e1, _, h1, _⟩ := C59_apply g sort mode o ho s1 dstData fun e he =>
    ⟨(h e he).1, fun p hp => ((h e he).2 p hp).1⟩
  obtain ⟨d2, e2, _, h2, _⟩ := C59_apply g sort mode o ho s2 dstData fun e he =>
    ⟨(h e he).1, fun p hp => ((h e he).2 p hp).2.1⟩
  obtain ⟨d, e, _, h', _⟩ := C59_apply g sort mode o ho s dstData fun e he =>
    ⟨(h e he).1, fun p hp => ((h e he).2 p hp).2.2⟩
  refine ⟨d1, d2, d, e1, e2, e, ?_⟩
  intro i l hm
  refine ⟨_, _, h1 i l hm, h2 i l hm, ?_⟩
  rw [h' i l hm]
  congr 1
  unfold weightedSum
  have := foldl_linear l (fun k => s1.getD k 0) (fun k => s2.getD k 0) α β 0 0
  rw [mul_zero, mul_zero, add_zero] at this
  rw [← this]
  simp only [hs]

end linear

/-! ### C56 -/

section exact
variable (g : Gels ℝ) (hg : GelsContract g) (sort : List P2 → List P2) (hsort : ∀ l, IsStdSort l (sort l)) (mode : Mode)
  (ddims sdims per : Nat × Nat) (dx dy sx sy : List ℝ)
  (hd : 1 ≤ ddims.1 ∧ 1 ≤ ddims.2) (hs : 1 ≤ sdims.1 ∧ 1 ≤ sdims.2)
  (hdx : ddims.1 * ddims.2 ≤ dx.length) (hdy : ddims.1 * ddims.2 ≤ dy.length)
  (hsx : sdims.1 * sdims.2 ≤ sx.length) (hsy : sdims.1 * sdims.2 ≤ sy.length)
  (hc : ∀ i < cellCount ddims, ∀ j < cellCount sdims, CleanCells (gridCell ddims dx dy i) (gridCell sdims sx sy j))
include hg hsort hd hs hdx hdy hsx hsy hc

theorem setAndCompute_spec (hn : 0 < cellCount sdims) (o o' : Interp ℝ) (h0 : o.weights = [])
    (h : setAndCompute g sort mode o ddims dx dy sdims per sx sy = .ok o') :
    TableOk (gridCell ddims dx dy) (gridCell sdims sx sy) (cellCount ddims) (cellCount sdims) o'.weights := by
  obtain ⟨dst, src, -, -, h1, h2, c1, c2, q1, q2, e⟩ := setAndCompute_eq g sort mode o ddims dx dy sdims per sx sy hd hs hdx
    hdy hsx hsy
  rw [e] at h
  rw [← q1, ← q2, ← c1, ← c2] at hc ⊢
  exact computeWeights_spec hg h1 h2 hsort hc (by rw [c2]; exact hn)
    { o with dst := some dst, src := some src } o' rfl rfl h0 h

/-- C56: after setting two grids on an object without weights and computing the weights, the weight of every pair of
cells is the fraction of the destination cell that the source cell covers (0 if nothing is stored for the pair). -/
theorem C56_weight (o o' : Interp ℝ) (h0 : o.weights = [])
    (h : setAndCompute g sort mode o ddims dx dy sdims per sx sy = .ok o') (i : Nat) (hi : i < cellCount ddims) (j : Nat)
    (hj : j < cellCount sdims) :
    weightOf o'.weights i j = overlapFraction (gridCell ddims dx dy i) (gridCell sdims sx sy j) :=
  (setAndCompute_spec g hg sort hsort mode ddims sdims per dx dy sx sy hd hs hdx hdy hsx hsy hc (by omega) o o' h0 h).weightOf
    hi hj

/-- C56: the table has nothing else in it: each pair at most once, cells of the grids only, the weight being the
fraction. -/
theorem C56_listed (hn : 0 < cellCount sdims) (o o' : Interp ℝ) (h0 : o.weights = [])
    (h : setAndCompute g sort mode o ddims dx dy sdims per sx sy = .ok o') :
    (triples o'.weights).Pairwise (fun a b => (a.1, a.2.1) ≠ (b.1, b.2.1)) ∧
    ∀ i j w, (i, j, w) ∈ triples o'.weights → i < cellCount ddims ∧ j < cellCount sdims ∧
      w = overlapFraction (gridCell ddims dx dy i) (gridCell sdims sx sy j) := by
  have hT := setAndCompute_spec g hg sort hsort mode ddims sdims per dx dy sx sy hd hs hdx hdy hsx hsy hc hn o o' h0 h
  constructor
  · unfold triples
    rw [List.pairwise_flatMap]
    constructor
    · intro e he
      rw [List.pairwise_map]
      refine (hT.cell e he).sorted.imp ?_
      intro a b hab heq
      have := congrArg Prod.snd heq
      dsimp only at this
      omega
    · refine hT.sorted.imp ?_
      intro a b hab x hx y hy heq
      obtain ⟨p, _, rfl⟩ := List.mem_map.mp hx
      obtain ⟨q, _, rfl⟩ := List.mem_map.mp hy
      have := congrArg Prod.fst heq
      dsimp only at this
      omega
  · intro i j w hm
    obtain ⟨e, he, hp⟩ := List.mem_flatMap.mp hm
    obtain ⟨p, hp', hpe⟩ := List.mem_map.mp hp
    cases hpe
    exact ⟨hT.lt e he, (hT.cell e he).lt p hp', (hT.cell e he).weight p hp'⟩

end exact

end Sg.Props
