import Verif.Proof.FlowHistory
/-
Properties C71 and C72 of flow interpolation.  `g` is the linear algebra library, `srt` is `std::sort` and `pert` the
perturbation of the nodes of the line.
-/
namespace Sg.Props
open Sg Sg.FlowInterp Sg.QuadIntersect Sg.QuadFlows Sg.LinearSolve Sg.Triangulate Sg.FindPoint Sg.Spec

/-! ### Histories -/

section history
set_option linter.unusedSectionVars false
variable {F : Type} [Zero F] [One F] [Add F] [Sub F] [Mul F] [Div F] [Neg F] [LT F] [DecidableLT F]
  [LE F] [DecidableLE F] [DecidableEq F] [NatCast F] [IntCast F] [FOps F]

/-- Calls that change the object. -/
inductive FlowCall (F : Type) where
  | setSrc (n0 n1 : Nat) (xs ys : List F)
  | setDst (n : Nat) (xs ys : List F)
  | compute

def FlowCall.exec (pert : Nat → Nat → Nat → F) (g : Gels F) (srt : List F → List F) (o : Flow F) : FlowCall F → Cxx (Flow F)
  | .setSrc n0 n1 xs ys => o.setSrcGrid (n0, n1) xs ys
  | .setDst n xs ys => o.setDstGrid pert n xs ys
  | .compute => o.computeWeights g srt

def runFlowCalls (pert : Nat → Nat → Nat → F) (g : Gels F) (srt : List F → List F) : Flow F → List (FlowCall F) → Cxx (Flow F)
  | o, [] => .ok o
  | o, c :: cs => do
    let o ← c.exec pert g srt o
    runFlowCalls pert g srt o cs

theorem runFlowCalls_append {pert : Nat → Nat → Nat → F} {g : Gels F} {srt : List F → List F} : ∀ (cs cs' : List (FlowCall F))
    {o o' : Flow F}, runFlowCalls pert g srt o (cs ++ cs') = .ok o' →
    ∃ o1, runFlowCalls pert g srt o cs = .ok o1 ∧ runFlowCalls pert g srt o1 cs' = .ok o'
  | [], cs', o, o', h => ⟨o, rfl, h⟩
  | c :: cs, cs', o, o', h => by
    obtain ⟨o1, h1, h⟩ := bind_ok_inv (show (c.exec pert g srt o >>= fun o => runFlowCalls pert g srt o (cs ++ cs')) = _ from h)
    obtain ⟨o2, h2, h3⟩ := runFlowCalls_append cs cs' h
    exact ⟨o2, bind_eq h1 h2, h3⟩

/-- What holds after any calls: keys below `N`, cells below `M`. -/
structure CallsOk (N M : Nat) (o : Flow F) : Prop where
  table : TableIn N M o.weights
  dst : ∀ d, o.dst = some d → d.numCells ≤ N

theorem calls_inv {pert : Nat → Nat → Nat → F} {g : Gels F} {srt : List F → List F} {N : Nat} : ∀ (cs : List (FlowCall F))
    {o o' : Flow F}, (∀ n xs ys, FlowCall.setDst n xs ys ∈ cs → n - 1 ≤ N) → CallsOk N 2147483648 o →
    (∀ s, o.src = some s → s.numCells ≤ 2147483647) → runFlowCalls pert g srt o cs = .ok o' →
    CallsOk N 2147483648 o' ∧ ∀ s, o'.src = some s → s.numCells ≤ 2147483647
  | [], o, o', _, h, hs, e => by cases e; exact ⟨h, hs⟩
  | c :: cs, o, o', hn, h, hs, e => by
    obtain ⟨o1, e1, e9⟩ := bind_ok_inv (show (c.exec pert g srt o >>= fun o => runFlowCalls pert g srt o cs) = _ from e)
    have hn' : ∀ n xs ys, FlowCall.setDst n xs ys ∈ cs → n - 1 ≤ N := fun n xs ys hm => hn n xs ys (List.mem_cons_of_mem _ hm)
    cases c with
    | setSrc n0 n1 xs ys =>
      obtain ⟨f1, f2, f3⟩ := setSrc_frame e1
      exact calls_inv cs hn' ⟨by rw [f2]; exact h.table, by rw [f1]; exact h.dst⟩ f3 e9
    | setDst n xs ys =>
      obtain ⟨f1, f2, f3⟩ := setDst_frame e1
      exact calls_inv cs hn' ⟨by rw [f2]; exact h.table, fun d hd => by
        rw [f3 d hd]; exact hn n xs ys (List.mem_cons_self ..)⟩ (by rw [f1]; exact hs) e9
    | compute =>
      obtain ⟨f1, f2, -, f3⟩ := compute_table e1
      refine calls_inv cs hn' ⟨f3 N _ h.dst (fun s h => by have := hs s h; omega) h.table, by rw [f2]; exact h.dst⟩ (by rw [f1]; exact hs) e9

/-- Calls that neither set the source grid nor, before, computed weights: all cells are cells of the source grid. -/
theorem calls_src {pert : Nat → Nat → Nat → F} {g : Gels F} {srt : List F → List F} {N : Nat} {s : Src F} : ∀ (cs : List (FlowCall F))
    {o o' : Flow F}, (∀ n xs ys, FlowCall.setDst n xs ys ∈ cs → n - 1 ≤ N) → (∀ c ∈ cs, ∀ n0 n1 xs ys, c ≠ FlowCall.setSrc n0 n1 xs ys) →
    ∀ M, s.numCells ≤ M → CallsOk N M o → o.src = some s → runFlowCalls pert g srt o cs = .ok o' →
    CallsOk N M o' ∧ o'.src = some s
  | [], o, o', _, _, _, _, h, hs, e => by cases e; exact ⟨h, hs⟩
  | c :: cs, o, o', hn, hc, M, hM, h, hs, e => by
    obtain ⟨o1, e1, e9⟩ := bind_ok_inv (show (c.exec pert g srt o >>= fun o => runFlowCalls pert g srt o cs) = _ from e)
    have hn' : ∀ n xs ys, FlowCall.setDst n xs ys ∈ cs → n - 1 ≤ N := fun n xs ys hm => hn n xs ys (List.mem_cons_of_mem _ hm)
    have hc' : ∀ c ∈ cs, ∀ n0 n1 xs ys, c ≠ FlowCall.setSrc n0 n1 xs ys := fun c hm => hc c (List.mem_cons_of_mem _ hm)
    cases c with
    | setSrc n0 n1 xs ys => exact absurd rfl (hc _ (List.mem_cons_self ..) n0 n1 xs ys)
    | setDst n xs ys =>
      obtain ⟨f1, f2, f3⟩ := setDst_frame e1
      exact calls_src cs hn' hc' M hM ⟨by rw [f2]; exact h.table, fun d hd => by
        rw [f3 d hd]; exact hn n xs ys (List.mem_cons_self ..)⟩ (by rw [f1]; exact hs) e9
    | compute =>
      obtain ⟨f1, f2, -, f3⟩ := compute_table e1
      refine calls_src cs hn' hc' M hM ⟨f3 N M h.dst (fun s' h => ?_) h.table, by rw [f2]; exact h.dst⟩ (by rw [f1]; exact hs) e9
      rw [hs] at h; cases h; exact hM

theorem calls_noweights {pert : Nat → Nat → Nat → F} {g : Gels F} {srt : List F → List F} : ∀ (cs : List (FlowCall F))
    {o o' : Flow F}, (∀ c ∈ cs, c ≠ FlowCall.compute) → o.weights = [] → runFlowCalls pert g srt o cs = .ok o' → o'.weights = []
  | [], o, o', _, h, e => by cases e; exact h
  | c :: cs, o, o', hc, h, e => by
    obtain ⟨o1, e1, e9⟩ := bind_ok_inv (show (c.exec pert g srt o >>= fun o => runFlowCalls pert g srt o cs) = _ from e)
    refine calls_noweights cs (fun c hm => hc c (List.mem_cons_of_mem _ hm)) ?_ e9
    cases c with
    | setSrc n0 n1 xs ys => rw [(setSrc_frame e1).2.1]; exact h
    | setDst n xs ys => rw [(setDst_frame e1).2.1]; exact h
    | compute => exact absurd rfl (hc _ (List.mem_cons_self ..))

/-! ### C71 -/

/-- **C71** For every number of nodes of the source grid (at least two on each axis), all coordinates, every history in which
no weights were computed before this source grid was set, and whatever the arithmetic: there is a list `W k` of cells of the
source grid and weights for each segment `k` of the line such that, for all data, `apply` is defined; it writes to each segment
with cells the sum, over the cells `(i, j)` in `W k`, of the four edges of the cell times their weights, in this order, and to
nothing else.  The edges are at places inside the arrays. -/
theorem C71_own_edges (pert : Nat → Nat → Nat → F) (g : Gels F) (srt : List F → List F) (before after : List (FlowCall F))
    (hb : ∀ c ∈ before, c ≠ FlowCall.compute) (ha : ∀ c ∈ after, ∀ n0 n1 xs ys, c ≠ FlowCall.setSrc n0 n1 xs ys)
    (n0 n1 : Nat) (h0 : 2 ≤ n0) (h1 : 2 ≤ n1) (hf : n0 * n1 ≤ 1073741824) (xs ys : List F)
    (hx : n0 * n1 ≤ xs.length) (hy : n0 * n1 ≤ ys.length) (N : Nat)
    (hN : ∀ n xs ys, FlowCall.setDst n xs ys ∈ before ++ after → n - 1 ≤ N) (o : Flow F)
    (hrun : runFlowCalls pert g srt Flow.new (before ++ FlowCall.setSrc n0 n1 xs ys :: after) = .ok o) :
    ∃ W : Nat → List ((Nat × Nat) × (Fin 4 → F)),
      (∀ k, W k ≠ [] → k < N) ∧
      (∀ k, ∀ c ∈ W k, c.1.1 < n0 - 1 ∧ c.1.2 < n1 - 1) ∧
      (∀ i j, i < n0 - 1 → j < n1 - 1 → xEdge n1 i j < (n0 - 1) * n1 ∧ xEdge n1 i (j + 1) < (n0 - 1) * n1 ∧
        yEdge n1 i j < n0 * (n1 - 1) ∧ yEdge n1 (i + 1) j < n0 * (n1 - 1)) ∧
      ∀ x y d : List F, (n0 - 1) * n1 ≤ x.length → n0 * (n1 - 1) ≤ y.length → N ≤ d.length →
        ∃ d', o.apply x y d = .ok d' ∧ d'.length = d.length ∧
          ∀ k, d'[k]? = if (W k).isEmpty then d[k]? else
            some ((W k).foldl (fun acc c =>
              acc + c.2 0 * x.getD (xEdge n1 c.1.1 c.1.2) 0 + c.2 1 * x.getD (xEdge n1 c.1.1 (c.1.2 + 1)) 0 +
                c.2 2 * y.getD (yEdge n1 c.1.1 c.1.2) 0 + c.2 3 * y.getD (yEdge n1 (c.1.1 + 1) c.1.2) 0) 0) := by
  obtain ⟨o1, e1, e⟩ := runFlowCalls_append _ _ hrun
  have hw := calls_noweights before hb rfl e1
  obtain ⟨o2, e2, e⟩ := bind_ok_inv (show (o1.setSrcGrid (n0, n1) xs ys >>= fun o => runFlowCalls pert g srt o after) = _ from e)
  obtain ⟨c1, -⟩ := calls_inv before (fun n xs ys hm => hN n xs ys (List.mem_append_left _ hm)) (o := Flow.new)
    ⟨tableIn_nil _ _, by intro d h; cases h⟩ (by intro s h; cases h) e1
  obtain ⟨s, es, hs⟩ := setSrcGrid_ok o1 (by omega) (by omega) hf hx hy
  rw [es] at e2
  cases e2
  obtain ⟨c2, hsrc⟩ := calls_src (s := s) after (fun n xs ys hm => hN n xs ys (List.mem_append_right _ hm)) ha _ le_rfl
    (o := { src := some s, dst := o1.dst, weights := o1.weights }) ⟨by rw [hw]; exact tableIn_nil _ _, c1.dst⟩ rfl e
  have hnc := hs.numCells
  have hlt : ∀ k, ∀ c ∈ entries o.weights k, c.1 < (n0 - 1) * (n1 - 1) := by
    intro k c hc
    have := (c2.table.entries (k := k) (by intro h; rw [h] at hc; cases hc)).2 c hc
    omega
  refine ⟨fun k => (entries o.weights k).map fun c => ((c.1 / (n1 - 1), c.1 % (n1 - 1)), c.2), ?_, ?_, ?_, ?_⟩
  · intro k hk
    exact (c2.table.entries (by simpa using hk)).1
  · intro k c hc
    obtain ⟨c', hc', rfl⟩ := List.mem_map.mp hc
    have := cell_split (hlt k c' hc')
    exact ⟨this.2.2.1, this.2.2.2⟩
  · intro i j hi hj
    exact ⟨cell_lt hi (by omega), cell_lt hi (by omega), cell_lt (by omega) hj, cell_lt (by omega) hj⟩
  · intro x y d hx hy hd
    have hle : (n0 - 1) * (n1 - 1) ≤ n0 * n1 := Nat.mul_le_mul (by omega) (by omega)
    obtain ⟨d', ed, hl, hv⟩ := apply_ok hs h0 h1 ⟨hx, hy⟩ o hsrc c2.table.ok d (fun e he => by
      have := c2.table.lt e he
      refine ⟨this.1.trans_le hd, fun c hc => ?_⟩
      have := this.2 c hc
      omega)
    refine ⟨d', ed, hl, fun k => ?_⟩
    rw [hv k]
    by_cases hk : entries o.weights k = []
    · simp [hk]
    · have : ((entries o.weights k).map fun c => ((c.1 / (n1 - 1), c.1 % (n1 - 1)), c.2)).isEmpty = false := by
        simpa using hk
      simp only [this, Bool.false_eq_true, if_false, if_neg hk]
      congr 1
      rw [List.foldl_map]
      unfold flowSum
      have key : ∀ (l : List (Nat × (Fin 4 → F))) (acc : F), (∀ c ∈ l, c.1 < (n0 - 1) * (n1 - 1)) →
          l.foldl (addCell n0 n1 x y) acc = l.foldl (fun acc c =>
            acc + c.2 0 * x.getD (xEdge n1 (c.1 / (n1 - 1)) (c.1 % (n1 - 1))) 0 +
              c.2 1 * x.getD (xEdge n1 (c.1 / (n1 - 1)) (c.1 % (n1 - 1) + 1)) 0 +
              c.2 2 * y.getD (yEdge n1 (c.1 / (n1 - 1)) (c.1 % (n1 - 1))) 0 +
              c.2 3 * y.getD (yEdge n1 (c.1 / (n1 - 1) + 1) (c.1 % (n1 - 1))) 0) acc := by
        intro l
        induction l with
        | nil => intro acc _; rfl
        | cons c l ih =>
          intro acc hl
          rw [List.foldl_cons, List.foldl_cons, ih _ fun c hc => hl c (List.mem_cons_of_mem _ hc)]
          congr 1
          have := cell_split (hl c (List.mem_cons_self ..))
          simp only [addCell, xEdge, yEdge, Nat.mod_eq_of_lt this.2.2.1]
      exact key _ _ (hlt k)

/-! ### C72 -/

/-- The calls of `before`, both grids, then `computeWeights` and `apply`. -/
def flowWith (pert : Nat → Nat → Nat → F) (g : Gels F) (srt : List F → List F) (before : List (FlowCall F)) (n0 n1 : Nat)
    (xs ys : List F) (n : Nat) (us vs : List F) (m : Nat) (x y d : List F) : Cxx (List F) := do
  let o ← runFlowCalls pert g srt Flow.new
    (before ++ [.setSrc n0 n1 xs ys, .setDst n us vs] ++ List.replicate m .compute)
  o.apply x y d

/-- **C72, part.**  Missing: histories with an earlier `computeWeights`, for which it is false (`C72_times`, `C72_stale`).
After any history without `computeWeights`, setting both grids, computing the weights and applying them gives what it gives
for a new object. -/
theorem C72_reuse_partial (pert : Nat → Nat → Nat → F) (g : Gels F) (srt : List F → List F) (before : List (FlowCall F))
    (hb : ∀ c ∈ before, c ≠ FlowCall.compute) (o : Flow F) (ho : runFlowCalls pert g srt Flow.new before = .ok o)
    (n0 n1 : Nat) (xs ys : List F) (n : Nat) (us vs : List F) (x y d : List F) :
    flowWith pert g srt before n0 n1 xs ys n us vs 1 x y d = flowWith pert g srt [] n0 n1 xs ys n us vs 1 x y d := by
  have hw := calls_noweights before hb rfl ho
  have split : ∀ (cs cs' : List (FlowCall F)) (o o' : Flow F), runFlowCalls pert g srt o cs = .ok o' →
      runFlowCalls pert g srt o (cs ++ cs') = runFlowCalls pert g srt o' cs' := by
    intro cs cs'
    induction cs with
    | nil => intro o o' h; cases h; rfl
    | cons c cs ih =>
      intro o o' h
      obtain ⟨o1, h1, h⟩ := bind_ok_inv (show (c.exec pert g srt o >>= fun o => runFlowCalls pert g srt o cs) = _ from h)
      exact bind_eq h1 (ih o1 o' h)
  unfold flowWith
  rw [List.append_assoc, split _ _ _ _ ho]
  congr 1
  simp only [List.nil_append, List.cons_append, runFlowCalls, FlowCall.exec]
  rw [setSrc_eq o]
  cases h1 : (Flow.new : Flow F).setSrcGrid (n0, n1) xs ys with
  | error e => rfl
  | ok p =>
    have hp := (setSrc_frame h1).2.1
    dsimp only [bind, Except.bind]
    rw [setDst_eq pert, setDst_eq pert p]
    cases (Flow.new : Flow F).setDstGrid pert n us vs with
    | error e => rfl
    | ok p' =>
      dsimp only [bind, Except.bind]
      rw [hp, hw]
      rfl

/-- **C72 is false** for histories with another line: nothing ever removes weights.  If `apply` changes segment `k` after some
calls then, after whatever other calls (a shorter line, say), `apply` with a shorter array is undefined: it writes beyond its
end. -/
theorem C72_stale (pert : Nat → Nat → Nat → F) (g : Gels F) (srt : List F → List F) (cs cs' : List (FlowCall F)) (o o' : Flow F)
    (ho : runFlowCalls pert g srt Flow.new cs = .ok o) (ho' : runFlowCalls pert g srt o cs' = .ok o')
    (x y d d' : List F) (k : Nat) (hd : o.apply x y d = .ok d') (hk : d'[k]? ≠ d[k]?) :
    ∀ x' y' e : List F, e.length ≤ k → ∃ u, o'.apply x' y' e = .error u := by
  have key : ∀ (cs : List (FlowCall F)) (o o' : Flow F), runFlowCalls pert g srt o cs = .ok o' → TableOk o.weights →
      TableOk o'.weights ∧ ∀ k, entries o.weights k ≠ [] → entries o'.weights k ≠ [] := by
    intro cs
    induction cs with
    | nil => intro o o' h ht; cases h; exact ⟨ht, fun _ h => h⟩
    | cons c cs ih =>
      intro o o' h ht
      obtain ⟨o1, h1, h2⟩ := bind_ok_inv (show (c.exec pert g srt o >>= fun o => runFlowCalls pert g srt o cs) = _ from h)
      have step : TableOk o1.weights ∧ ∀ k, entries o.weights k ≠ [] → entries o1.weights k ≠ [] := by
        cases c with
        | setSrc n0 n1 xs ys => rw [(setSrc_frame h1).2.1]; exact ⟨ht, fun _ h => h⟩
        | setDst n xs ys => rw [(setDst_frame h1).2.1]; exact ⟨ht, fun _ h => h⟩
        | compute =>
          have h1 : o.computeWeights g srt = .ok o1 := h1
          rcases compute_ahead g srt o ht with ⟨a, b, e1, e2, -, -, -, -, ta, -, he⟩ | ⟨e, e1, -⟩
          · rw [h1] at e1
            cases e1
            refine ⟨ta, fun k hk => ?_⟩
            rw [he]
            simp [hk]
          · rw [h1] at e1; cases e1
      obtain ⟨t2, k2⟩ := ih o1 o' h2 step.1
      exact ⟨t2, fun k hk => k2 k (step.2 k hk)⟩
  obtain ⟨t1, -⟩ := key cs _ _ ho tableOk_nil
  obtain ⟨-, hm⟩ := key cs' _ _ ho' t1
  have hne : entries o.weights k ≠ [] := by
    intro h0
    refine hk (apply_frame hd fun a ha hak => ?_)
    have := entries_mem t1.sorted ha
    rw [hak, h0] at this
    exact t1.nonempty a ha this.symm
  intro x' y' e he
  cases hr : o'.apply x' y' e with
  | error u => exact ⟨u, rfl⟩
  | ok e' =>
    have := apply_keys hr _ (mem_of_entries (hm k hne))
    dsimp only at this
    omega

end history

section exact
set_option linter.unusedSectionVars false
variable {K : Type} [Field K] [LinearOrder K] [IsStrictOrderedRing K] [FloorRing K] [FOps K] [FOpsLaws K]

theorem foldl_cells (n1 : Nat) (x y : List K) (l : List ((Nat × Nat) × (Fin 4 → K))) (acc : K) :
    l.foldl (fun acc c =>
      acc + c.2 0 * x.getD (xEdge n1 c.1.1 c.1.2) 0 + c.2 1 * x.getD (xEdge n1 c.1.1 (c.1.2 + 1)) 0 +
        c.2 2 * y.getD (yEdge n1 c.1.1 c.1.2) 0 + c.2 3 * y.getD (yEdge n1 (c.1.1 + 1) c.1.2) 0) acc =
      acc + (l.map fun c => cellFlow n1 x y c.1.1 c.1.2 c.2).sum := by
  induction l generalizing acc with
  | nil => simp
  | cons c l ih =>
    rw [List.foldl_cons, ih, List.map_cons, List.sum_cons]
    unfold cellFlow
    ring

/-- **C71** in exact arithmetic: the flows are linear in the edge data.  If the third data are `a` times the first and `b` times
the second, so are the flows of the segments that get one. -/
theorem C71_linear (pert : Nat → Nat → Nat → K) (g : Gels K) (srt : List K → List K) (before after : List (FlowCall K))
    (hb : ∀ c ∈ before, c ≠ FlowCall.compute) (ha : ∀ c ∈ after, ∀ n0 n1 xs ys, c ≠ FlowCall.setSrc n0 n1 xs ys)
    (n0 n1 : Nat) (h0 : 2 ≤ n0) (h1 : 2 ≤ n1) (hf : n0 * n1 ≤ 1073741824) (xs ys : List K)
    (hx : n0 * n1 ≤ xs.length) (hy : n0 * n1 ≤ ys.length) (N : Nat)
    (hN : ∀ n xs ys, FlowCall.setDst n xs ys ∈ before ++ after → n - 1 ≤ N) (o : Flow K)
    (hrun : runFlowCalls pert g srt Flow.new (before ++ FlowCall.setSrc n0 n1 xs ys :: after) = .ok o)
    (a b : K) (x y x' y' x'' y'' : List K)
    (hl : (n0 - 1) * n1 ≤ x.length ∧ (n0 - 1) * n1 ≤ x'.length ∧ (n0 - 1) * n1 ≤ x''.length)
    (hl' : n0 * (n1 - 1) ≤ y.length ∧ n0 * (n1 - 1) ≤ y'.length ∧ n0 * (n1 - 1) ≤ y''.length)
    (hxx : ∀ i, x''.getD i 0 = a * x.getD i 0 + b * x'.getD i 0)
    (hyy : ∀ i, y''.getD i 0 = a * y.getD i 0 + b * y'.getD i 0) (d : List K) (hd : N ≤ d.length) :
    ∃ r r' r'', o.apply x y d = .ok r ∧ o.apply x' y' d = .ok r' ∧ o.apply x'' y'' d = .ok r'' ∧
      ∃ gets : Nat → Prop, ∀ k,
        (gets k → ∃ u v, r[k]? = some u ∧ r'[k]? = some v ∧ r''[k]? = some (a * u + b * v)) ∧
        (¬ gets k → r[k]? = d[k]? ∧ r'[k]? = d[k]? ∧ r''[k]? = d[k]?) := by
  obtain ⟨W, -, -, -, hW⟩ := C71_own_edges pert g srt before after hb ha n0 n1 h0 h1 hf xs ys hx hy N hN o hrun
  obtain ⟨r, e1, -, v1⟩ := hW x y d hl.1 hl'.1 hd
  obtain ⟨r', e2, -, v2⟩ := hW x' y' d hl.2.1 hl'.2.1 hd
  obtain ⟨r'', e3, -, v3⟩ := hW x'' y'' d hl.2.2 hl'.2.2 hd
  refine ⟨r, r', r'', e1, e2, e3, fun k => (W k).isEmpty = false, fun k => ?_⟩
  rw [v1 k, v2 k, v3 k]
  beta_reduce
  cases hw : (W k).isEmpty with
  | true => exact ⟨fun h => absurd h (by simp), fun _ => ⟨by simp, by simp, by simp⟩⟩
  | false =>
    refine ⟨fun _ => ?_, fun h => absurd rfl h⟩
    simp only [Bool.false_eq_true, if_false]
    refine ⟨_, _, rfl, rfl, ?_⟩
    congr 1
    rw [foldl_cells, foldl_cells, foldl_cells, zero_add, zero_add, zero_add]
    generalize W k = l
    induction l with
    | nil => simp
    | cons c l ih =>
      rw [List.map_cons, List.sum_cons, List.map_cons, List.sum_cons, List.map_cons, List.sum_cons, ih]
      simp only [cellFlow, hxx, hyy]
      ring

/-- **C72 is false**: for every source grid, every line and all data, segment `k` has a flow `V k` (or none, if it has no part
in a cell) such that after `m` calls of `computeWeights` `apply` gives `m` times this flow. -/
theorem C72_times (pert : Nat → Nat → Nat → K) (g : Gels K)
    (hg : ∀ r : GelsArgs K, (g r).a.length = r.a.length ∧ (g r).b.length = r.b.length) (srt : List K → List K)
    (n0 n1 : Nat) (h0 : 2 ≤ n0) (h1 : 2 ≤ n1) (hf : n0 * n1 ≤ 1073741824) (xs ys : List K)
    (hx : n0 * n1 ≤ xs.length) (hy : n0 * n1 ≤ ys.length) (n : Nat) (hn : 1 ≤ n) (us vs : List K) (hu : n ≤ us.length)
    (hv : n ≤ vs.length) (x y : List K) (hxl : (n0 - 1) * n1 ≤ x.length) (hyl : n0 * (n1 - 1) ≤ y.length) :
    ∃ V : Nat → Option K, ∀ m, 1 ≤ m → ∀ d : List K, n - 1 ≤ d.length →
      ∃ d', flowWith pert g srt [] n0 n1 xs ys n us vs m x y d = .ok d' ∧ d'.length = d.length ∧
        ∀ k, d'[k]? = match V k with | none => d[k]? | some v => some ((m : K) * v) := by
  obtain ⟨s, es, hs⟩ := setSrcGrid_ok (Flow.new : Flow K) (by omega) (by omega) hf hx hy
  obtain ⟨t, et, ht⟩ := setDstGrid_ok pert { (Flow.new : Flow K) with src := some s } hn hu hv
  set o0 : Flow K := { src := some s, dst := some t, weights := [] } with ho0
  obtain ⟨o1, S, e1, s1, d1, t1, -, hE⟩ := compute_spec hg srt hs ht o0 rfl rfl tableOk_nil
  have key : ∀ m, ∃ om, runFlowCalls pert g srt o0 (List.replicate m .compute) = .ok om ∧ om.src = some s ∧ om.dst = some t ∧
      TableIn (n - 1) ((n0 - 1) * (n1 - 1)) om.weights ∧
      ∀ k, entries om.weights k = (List.replicate m (entries o1.weights k)).flatten := by
    intro m
    have step : ∀ (m : Nat) (o : Flow K) (w : Nat → List (Nat × (Fin 4 → K))), o.src = some s → o.dst = some t →
        TableIn (n - 1) ((n0 - 1) * (n1 - 1)) o.weights → (∀ k, entries o.weights k = w k) →
        ∃ om, runFlowCalls pert g srt o (List.replicate m .compute) = .ok om ∧ om.src = some s ∧ om.dst = some t ∧
          TableIn (n - 1) ((n0 - 1) * (n1 - 1)) om.weights ∧
          ∀ k, entries om.weights k = w k ++ (List.replicate m (entries o1.weights k)).flatten := by
      intro m
      induction m with
      | zero => intro o w a1 a2 a3 a4; exact ⟨o, rfl, a1, a2, a3, fun k => by simp [a4]⟩
      | succ m ih =>
        intro o w a1 a2 a3 a4
        have hfresh : ({ o with weights := [] } : Flow K) = o0 := by rw [ho0, a1, a2]
        rcases compute_ahead g srt o a3.ok with ⟨a, b, c1, c2, q1, q2, -, -, -, -, he⟩ | ⟨e, -, c2⟩
        · rw [hfresh, e1] at c2
          cases c2
          have hin := (compute_table c1).2.2.2 (n - 1) ((n0 - 1) * (n1 - 1))
            (fun d hd => by rw [a2] at hd; cases hd; exact ht.numCells.le)
            (fun d hd => by rw [a1] at hd; cases hd; exact hs.numCells.le) a3
          obtain ⟨om, r1, r2, r3, r4, r5⟩ := ih a (fun k => w k ++ entries o1.weights k) (q1.trans a1) (q2.trans a2) hin
            (fun k => by rw [he, a4])
          refine ⟨om, bind_eq c1 r1, r2, r3, r4, fun k => ?_⟩
          rw [r5, List.replicate_succ, List.flatten_cons, List.append_assoc]
        · rw [hfresh, e1] at c2; cases c2
    obtain ⟨om, r1, r2, r3, r4, r5⟩ := step m o0 (fun _ => []) rfl rfl (tableIn_nil _ _) (fun k => by simp [ho0, entries])
    exact ⟨om, r1, r2, r3, r4, fun k => by rw [r5, List.nil_append]⟩
  refine ⟨fun k => if (entries o1.weights k).isEmpty then none else some (flowSum n0 n1 x y (entries o1.weights k)), ?_⟩
  intro m hm d hd
  obtain ⟨om, r1, r2, r3, r4, r5⟩ := key m
  have hle : (n0 - 1) * (n1 - 1) ≤ n0 * n1 := Nat.mul_le_mul (by omega) (by omega)
  obtain ⟨d', ed, hl, hv⟩ := apply_ok hs h0 h1 ⟨hxl, hyl⟩ om r2 r4.ok d (fun e he => by
    have := r4.lt e he
    refine ⟨this.1.trans_le hd, fun c hc => ?_⟩
    have := this.2 c hc
    omega)
  refine ⟨d', ?_, hl, fun k => ?_⟩
  · unfold flowWith
    refine bind_eq ?_ ed
    simp only [List.nil_append, List.cons_append, runFlowCalls, FlowCall.exec]
    exact bind_eq es (bind_eq et r1)
  · rw [hv k, r5 k]
    beta_reduce
    generalize entries o1.weights k = l
    cases l with
    | nil =>
      have : (List.replicate m ([] : List (Nat × (Fin 4 → K)))).flatten = [] := by simp
      rw [if_pos this]
      rfl
    | cons c l =>
      have : (List.replicate m (c :: l)).flatten ≠ [] := by
        obtain ⟨m, rfl⟩ : ∃ m', m = m' + 1 := ⟨m - 1, by omega⟩
        simp [List.replicate_succ]
      rw [if_neg this]
      simp only [List.isEmpty_cons, Bool.false_eq_true, if_false]
      congr 1
      rw [flowSum_eq, flowSum_eq, List.map_flatten, List.map_replicate, List.sum_flatten, List.map_replicate, List.sum_replicate,
        nsmul_eq_mul]

end exact

/-! ### Witnesses -/

open Sg.Witness

/-- No perturbation. -/
def noPert {F : Type} [Zero F] : Nat → Nat → Nat → F := fun _ _ _ => 0

/-- **C72 is false**: on one square cell, with the edge data (1, 1) and (0, 0) and the line from (0, 0) to (1, 1), the flow is 1
after one call of `computeWeights` and 2 after two calls. -/
theorem C72_refuted :
    flowWith noPert cramerGels sortReal [] 2 2 [0, 0, 1, 1] [0, 1, 0, 1] 2 [0, 1] [0, 1] 1 [1, 1] [0, 0] [7] = .ok [(1 : ℚ)] ∧
    flowWith noPert cramerGels sortReal [] 2 2 [0, 0, 1, 1] [0, 1, 0, 1] 2 [0, 1] [0, 1] 2 [1, 1] [0, 0] [7] = .ok [(2 : ℚ)] := by
  constructor <;> decide +kernel

/-- The hypotheses of C72_stale hold for a line of two segments followed by a line of one. -/
example : ∃ o o' : Flow ℚ, ∃ d',
    runFlowCalls noPert cramerGels sortReal Flow.new
      [.setSrc 2 2 [0, 0, 1, 1] [0, 1, 0, 1], .setDst 3 [0, 1 / 2, 1] [0, 1 / 2, 1], .compute] = .ok o ∧
    runFlowCalls noPert cramerGels sortReal o [.setDst 2 [0, 1] [0, 1], .compute] = .ok o' ∧
    o.apply [1, 1] [0, 0] [7, 7] = .ok d' ∧ d'[1]? ≠ ([7, 7] : List ℚ)[1]? := by
  have h : (runFlowCalls noPert cramerGels sortReal (Flow.new : Flow ℚ)
      [.setSrc 2 2 [0, 0, 1, 1] [0, 1, 0, 1], .setDst 3 [0, 1 / 2, 1] [0, 1 / 2, 1], .compute] >>= fun o =>
      runFlowCalls noPert cramerGels sortReal o [.setDst 2 [0, 1] [0, 1], .compute] >>= fun _ =>
      o.apply [1, 1] [0, 0] [7, 7]) = .ok [1 / 2, 1 / 2] := by decide +kernel
  obtain ⟨o, h1, h⟩ := bind_ok_inv h
  obtain ⟨o', h2, h⟩ := bind_ok_inv h
  exact ⟨o, o', _, h1, h2, h, by norm_num⟩

/-- A history as in C71_own_edges, with a longer line before and weights computed twice after. -/
example : ∃ o : Flow ℚ, runFlowCalls noPert cramerGels sortReal Flow.new
    ([.setDst 3 [0, 1 / 2, 1] [0, 1 / 2, 1], .setSrc 1 1 [0] [0]] ++ FlowCall.setSrc 2 2 [0, 0, 1, 1] [0, 1, 0, 1] ::
      [.compute, .setDst 2 [0, 1] [0, 1], .compute]) = .ok o ∧ o.apply [1, 1] [0, 0] [7, 7] = .ok [3 / 2, 1 / 2] := by
  have h : (runFlowCalls noPert cramerGels sortReal (Flow.new : Flow ℚ)
    ([.setDst 3 [0, 1 / 2, 1] [0, 1 / 2, 1], .setSrc 1 1 [0] [0]] ++ FlowCall.setSrc 2 2 [0, 0, 1, 1] [0, 1, 0, 1] ::
      [.compute, .setDst 2 [0, 1] [0, 1], .compute]) >>= fun o => o.apply [1, 1] [0, 0] [7, 7]) = .ok [3 / 2, 1 / 2] := by
    decide +kernel
  obtain ⟨o, h1, h⟩ := bind_ok_inv h
  exact ⟨o, h1, h⟩

/-- **C78 is false** (a flow is written for every segment): a segment that misses the source grid keeps what was in the
array, here 7. -/
theorem C78_outside_refuted :
    flowWith noPert cramerGels sortReal [] 2 2 [0, 0, 1, 1] [0, 1, 0, 1] 4 [0, 1, 2, 3] [0, 1, 2, 3] 1 [1, 1] [0, 0] [7, 7, 7] =
      .ok [(1 : ℚ), 0, 7] := by decide +kernel

/-- **C79 is false** (no part of the line is counted twice): a line along the edge between two cells.  The edge is (1, 0) to
(1, 1), the cells are the unit squares on both sides of it, all edges up carry 1; the flow is 2 and not 1. -/
theorem C79_shared_edge_refuted :
    flowWith noPert cramerGels sortReal [] 3 2 [0, 0, 1, 1, 2, 2] [0, 1, 0, 1, 0, 1] 2 [1, 1] [0, 1] 1 [0, 0, 0, 0] [1, 1, 1] [7] =
      .ok [(2 : ℚ)] := by decide +kernel

/-- The perturbation of a line of three nodes: `10 * 2^-52 * (k + 1) * cos(1.99 π i / 2)`, the cosines 1, -0.99988 and 0.99951
rounded to four digits. -/
def pert3 : Nat → Nat → Nat → ℚ := fun _ k i =>
  10 / 2 ^ 52 * (k + 1) * (if i = 0 then 1 else if i = 1 then -9999 / 10000 else 9995 / 10000)

/-- The same with the perturbation the code makes: the line (1, 0), (1, 1/2), (1, 1) along the edge.  Both segments get nearly 1,
where each has the flow 1/2: the middle node is moved to the other side of the edge, so that both cells see both segments. -/
theorem C79_perturbed_refuted :
    ∃ u v : ℚ, flowWith pert3 cramerGels sortReal [] 3 2 [0, 0, 1, 1, 2, 2] [0, 1, 0, 1, 0, 1] 3 [1, 1, 1] [0, 1 / 2, 1] 1
      [0, 0, 0, 0] [1, 1, 1] [7, 7] = .ok [u, v] ∧ 99 / 100 < u ∧ 99 / 100 < v :=
  ⟨1125899906842614001 / 1125899906842624000, 1125899906842633999 / 1125899906842624000, by decide +kernel, by norm_num,
    by norm_num⟩

/-- **C80 is false** (a small move of the line changes the flow little): on one cell [0, 1000] × [0, 1000] with 1 on both edges
up, the segment from (500, 0) to (500, 1000) has the flow 1, and the segment from (500, 0) to (500, 1000 + 10⁻¹²) the flow 1/2:
the intersector takes the end as inside, the search of its position does not, and the position stays at the middle of the cell. -/
theorem C80_small_move_refuted :
    flowWith noPert cramerGels sortReal [] 2 2 [0, 0, 1000, 1000] [0, 1000, 0, 1000] 2 [500, 500] [0, 1000] 1 [0, 0] [1, 1] [7] =
      .ok [(1 : ℚ)] ∧
    flowWith noPert cramerGels sortReal [] 2 2 [0, 0, 1000, 1000] [0, 1000, 0, 1000] 2 [500, 500] [0, 1000 + 1 / 10 ^ 12] 1
      [0, 0] [1, 1] [7] = .ok [(1 / 2 : ℚ)] := by
  constructor <;> decide +kernel

end Sg.Props
