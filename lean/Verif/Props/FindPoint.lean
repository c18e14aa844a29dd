import Verif.Proof.FindPointExact
/-
Properties C31-C36 of the Newton search.  `F` is any type with operations, no law assumed (IEEE doubles with NaN
and infinities are a case); `K` is an ordered field with a floor.  `g` stands for the linear algebra library.
-/
namespace Sg.Props
open Sg Sg.FindPoint Sg.LinearSolve Sg.Spec

section generic
set_option linter.unusedSectionVars false
variable {F : Type} [Zero F] [One F] [Add F] [Sub F] [Mul F] [Div F] [Neg F] [LT F] [DecidableLT F]
  [LE F] [DecidableLE F] [DecidableEq F] [NatCast F] [IntCast F] [FOps F] {n : Nat}

/-- One call of the interface of the finder. -/
inductive Call (F : Type) (n : Nat)
  | setGrid (dims : Fin n → Nat) (periodicity : Fin n → Int) (coords : Fin n → Nat → F)
  | reset (dIndices target : Fin n → F)
  | next

/-- Effect of one call. -/
def Call.exec (g : Gels F) (s : Finder F n) : Call F n → Cxx (Finder F n)
  | .setGrid dims per coords => .ok (s.setGrid dims per coords)
  | .reset d t => .ok (s.reset d t)
  | .next => do let r ← s.next g; return r.2

/-- A sequence of calls. -/
def runCalls (g : Gels F) : Finder F n → List (Call F n) → Cxx (Finder F n)
  | s, [] => .ok s
  | s, c :: cs => do let s' ← c.exec g s; runCalls g s' cs

/-- No new grid is set. -/
def SearchOnly (cs : List (Call F n)) : Prop := ∀ c ∈ cs, (∃ d t, c = .reset d t) ∨ c = .next

/-- A search as a user sees it: reset, then `next` until a non-zero code (at most `fuel` times); the last code, the
index position and the errors met. -/
def searchFrom (g : Gels F) (s : Finder F n) (d t : Fin n → F) (fuel : Nat) : Cxx (Int × (Fin n → F) × List F) := do
  let r ← searchLoop g fuel (s.reset d t)
  return (r.1, r.2.dIndices, r.2.errorHistory)

theorem loop_bound (g : Gels F) : ∀ (k : Nat) (s s' : Finder F n) (c : Int), searchLoop g k s = .ok (c, s') →
    1 ≤ k → c = 0 → s.iter + k < s.nitermax := by
  intro k
  induction k with
  | zero => intro s s' c _ h; omega
  | succ k ih =>
    intro s s' c h _ hc
    unfold searchLoop at h
    obtain ⟨⟨c1, s1⟩, h1, h⟩ := bind_ok_inv h
    dsimp only at h
    split_ifs at h with h0
    · subst h0
      have hf := next_frame g s 0 s1 h1
      rcases next_inv g s 0 s1 h1 with ⟨h3, _⟩ | ⟨slvr, jac, rhs, sol, e, b, _, _, _, _, h4⟩
      · omega
      · have hs := finishStep_spec _ e 0 s1 h4
        obtain ⟨hi, -, -, -, -, -, -, -, hz, -⟩ := hs
        have hz := (hz rfl).2.1
        dsimp only at hi hz
        cases k with
        | zero => push_cast; omega
        | succ k =>
          have := ih s1 s' c h (by omega) hc
          rw [hf.2.2.2.2.1] at this
          push_cast at this ⊢; omega
    · simp only [pure, Except.pure, Except.ok.injEq, Prod.mk.injEq] at h
      omega

/-- **C31** Whatever the finder, the target, the library and the arithmetic: a search stops.  If
`max(nitermax, 1)` calls of `next` come back, one of them returned a non-zero code. -/
theorem C31_search_stops (g : Gels F) (s : Finder F n) (d t : Fin n → F) (c : Int) (r : (Fin n → F) × List F)
    (h : searchFrom g s d t (max s.nitermax 1).toNat = .ok (c, r)) : c ≠ 0 := by
  unfold searchFrom at h
  obtain ⟨⟨c1, s1⟩, h1, h⟩ := bind_ok_inv h
  simp only [pure, Except.pure, Except.ok.injEq, Prod.mk.injEq] at h
  intro hc
  have := loop_bound g _ _ s1 c1 h1 (by omega) (by omega)
  simp only [Finder.reset] at this
  omega

/-- **C31** More calls do not change the outcome of the search. -/
theorem C31_more_calls (g : Gels F) (k : Nat) (s s' : Finder F n) (c : Int) (h : searchLoop g k s = .ok (c, s'))
    (hc : c ≠ 0) (j : Nat) : searchLoop g (k + j) s = .ok (c, s') := by
  induction k generalizing s with
  | zero => simp only [searchLoop, Except.ok.injEq, Prod.mk.injEq] at h; omega
  | succ k ih =>
    rw [Nat.add_right_comm]
    unfold searchLoop at h ⊢
    obtain ⟨⟨c1, s1⟩, h1, h⟩ := bind_ok_inv h
    rw [h1]
    simp only [bind, Except.bind]
    dsimp only at h
    split_ifs at h ⊢ with h0
    · exact ih s1 h
    · exact h

/-- **C32** in any arithmetic.  The codes of `next` are 0, 1, -1, -2, -3.  1: the error at the current position, as
`getError` tells, is below the tolerance.  0: it is not, and fewer than `nitermax` steps were made.  -1: `nitermax`
steps were made.  -2: the error is larger than three steps before.  -3: the target fails the comparison with a bound
of the grid, and the finder is unchanged.  `iter` counts the steps since `reset`. -/
theorem C32_status_code (g : Gels F) (s s' : Finder F n) (c : Int) (h : s.next g = .ok (c, s')) :
    (c = 0 ∨ c = 1 ∨ c = -1 ∨ c = -2 ∨ c = -3) ∧
    (c ≠ -3 → s'.iter = s.iter + 1) ∧
    (c = 1 → ∃ e, s'.getError = .ok e ∧ e < s.tolpos) ∧
    (c = 0 → (∃ e, s'.getError = .ok e ∧ ¬ e < s.tolpos) ∧ s'.iter < s.nitermax) ∧
    (c = -1 → s.nitermax ≤ s'.iter) ∧
    (c = -2 → ∃ e e3, s'.getError = .ok e ∧ s'.errorHistory.getLast? = some e ∧ 3 ≤ s'.errorHistory.length ∧
      s'.errorHistory[s'.errorHistory.length - 3]? = some e3 ∧ e3 + FOps.eps100 < e) ∧
    (c = -3 → s' = s ∧ ∃ b i, s.bounds = some b ∧
      (¬ (b.1 i - FOps.eps100 ≤ s.targetPoint i) ∨ ¬ (s.targetPoint i ≤ b.2 i + FOps.eps100))) := by
  rcases next_inv g s c s' h with ⟨hc, rfl, b, hb, hin⟩ | ⟨slvr, jac, rhs, sol, e, b, hb, _, _, he, h4⟩
  · refine ⟨by omega, by omega, by omega, by omega, by omega, by omega, fun _ => ⟨rfl, ?_⟩⟩
    unfold Finder.inside at hin
    rw [List.all_eq_false] at hin
    obtain ⟨i, _, hi⟩ := hin
    refine ⟨b, i, hb, ?_⟩
    simp only [Bool.and_eq_true, decide_eq_true_eq, not_and_or] at hi
    exact hi
  · obtain ⟨h1, h2, h3, -, -, -, h4, h5, h6, h7, h8⟩ := finishStep_spec _ e c s' h4
    rw [he] at h3
    dsimp only at h1 h2 h5 h6 h7
    refine ⟨by omega, fun _ => h1, fun hc => ⟨e, h3, (h5 hc).1⟩, fun hc => ⟨⟨e, h3, (h6 hc).1⟩, (h6 hc).2.1⟩, h7, ?_, by omega⟩
    intro hc
    obtain ⟨h9, h10⟩ := h8 hc
    refine ⟨e, _, h3, by rw [h2]; simp, h9, List.getElem?_eq_getElem (by omega), ?_⟩
    rw [List.getD_eq_getElem?_getD, List.getElem?_eq_getElem (by omega)] at h10
    exact h10

/-- What calls other than `setGrid` keep. -/
structure SameGrid (s0 s : Finder F n) : Prop where
  coords : s.coords = s0.coords
  bounds : s.bounds = s0.bounds
  per : s.indexPeriodicity = s0.indexPeriodicity
  dims : s.dims = s0.dims
  nitermax : s.nitermax = s0.nitermax
  tolpos : s.tolpos = s0.tolpos

theorem runCalls_same (g : Gels F) (hg : KeepsSizes g) (hn : 1 ≤ n) : ∀ (cs : List (Call F n)) (s0 s : Finder F n),
    Ready s0 → SearchOnly cs → runCalls g s0 cs = .ok s → Ready s ∧ SameGrid s0 s
  | [], s0, s, h, _, e => by
    simp only [runCalls, Except.ok.injEq] at e; subst e; exact ⟨h, by constructor <;> rfl⟩
  | c :: cs, s0, s, h, hcs, e => by
    unfold runCalls at e
    obtain ⟨s1, h1, e⟩ := bind_ok_inv e
    have step : Ready s1 ∧ SameGrid s0 s1 := by
      rcases hcs c (List.mem_cons_self ..) with ⟨d, t, rfl⟩ | rfl
      · simp only [Call.exec, Except.ok.injEq] at h1
        subst h1
        exact ⟨ready_reset s0 d t h, by constructor <;> rfl⟩
      · simp only [Call.exec] at h1
        obtain ⟨⟨c1, s2⟩, h2, h1⟩ := bind_ok_inv h1
        simp only [pure, Except.pure, Except.ok.injEq] at h1
        subst h1
        obtain ⟨f1, f2, f3, _, f5, f6, f7⟩ := next_frame g s0 c1 s2 h2
        exact ⟨ready_next g hg hn s0 c1 s2 h h2, f1, f2, f7, f3, f5, f6⟩
    obtain ⟨r, q⟩ := runCalls_same g hg hn cs s1 s step.1 (fun x hx => hcs x (List.mem_cons_of_mem _ hx)) e
    exact ⟨r, q.coords.trans step.2.coords, q.bounds.trans step.2.bounds, q.per.trans step.2.per,
      q.dims.trans step.2.dims, q.nitermax.trans step.2.nitermax, q.tolpos.trans step.2.tolpos⟩

theorem searchFrom_same (g : Gels F) (hg : KeepsSizes g) (hn : 1 ≤ n) (s0 s : Finder F n) (h0 : Ready s0) (h : Ready s)
    (q : SameGrid s0 s) (d t : Fin n → F) (fuel : Nat) : searchFrom g s d t fuel = searchFrom g s0 d t fuel := by
  have hs := sim_loop g hg hn fuel (s.reset d t) (s0.reset d t) (ready_reset s d t h) (ready_reset s0 d t h0)
    ⟨q.coords, q.bounds, q.per, q.dims, rfl, q.nitermax, q.tolpos, rfl, rfl, rfl, fun h => absurd rfl h⟩
  unfold searchFrom
  cases h1 : searchLoop g fuel (s.reset d t) with
  | error e =>
    cases h2 : searchLoop g fuel (s0.reset d t) with
    | error e' => rw [h1, h2] at hs; simp only [SimOut] at hs; rw [hs]
    | ok r' => rw [h1, h2] at hs; exact hs.elim
  | ok r =>
    cases h2 : searchLoop g fuel (s0.reset d t) with
    | error e' => rw [h1, h2] at hs; exact hs.elim
    | ok r' =>
      rw [h1, h2] at hs
      obtain ⟨a, _, b, c, _⟩ := hs
      simp only [bind, Except.bind, pure, Except.pure, a, b, c]

/-- **C33** A search from given indices to a given target gives the same codes, positions and errors, whatever
searches (any calls of `reset` and `next`, even abandoned half way) were made before on this grid, in any arithmetic. -/
theorem C33_history_free (g : Gels F) (hg : KeepsSizes g) (hn : 1 ≤ n) (nitermax : Int) (tolpos : F)
    (dims : Fin n → Nat) (per : Fin n → Int) (coords : Fin n → Nat → F) (cs : List (Call F n)) (hcs : SearchOnly cs)
    (s : Finder F n) (h : runCalls g ((Finder.new nitermax tolpos).setGrid dims per coords) cs = .ok s)
    (d t : Fin n → F) (fuel : Nat) :
    searchFrom g s d t fuel = searchFrom g ((Finder.new nitermax tolpos).setGrid dims per coords) d t fuel := by
  have h0 := ready_setGrid (Finder.new nitermax tolpos) dims per coords
  obtain ⟨hr, hq⟩ := runCalls_same g hg hn cs _ s h0 hcs h
  exact searchFrom_same g hg hn _ s h0 hr hq d t fuel

end generic

section exact
set_option linter.unusedSectionVars false
variable {K : Type} [Field K] [LinearOrder K] [IsStrictOrderedRing K] [FloorRing K] [FOps K] [FOpsLaws K] {n : Nat}

/-- **C32** in exact arithmetic: if `next` returns -3, after any calls, there is a coordinate in which the target is
below all nodes of the grid or above all of them. -/
theorem C32_outside (g : Gels K) (hg : KeepsSizes g) (hn : 1 ≤ n) (s00 : Finder K n)
    (dims : Fin n → Nat) (per : Fin n → Int) (coords : Fin n → Nat → K) (cs : List (Call K n)) (hcs : SearchOnly cs)
    (s s' : Finder K n) (h : runCalls g (s00.setGrid dims per coords) cs = .ok s) (hnext : s.next g = .ok (-3, s')) :
    ∃ i, (∀ j < ∏ k, dims k, s.targetPoint i < coords i j) ∨ (∀ j < ∏ k, dims k, coords i j < s.targetPoint i) := by
  obtain ⟨hr, hq⟩ := runCalls_same g hg hn cs _ s (ready_setGrid s00 dims per coords) hcs h
  obtain ⟨_, b, i, hb, hi⟩ := (C32_status_code g s s' (-3) hnext).2.2.2.2.2.2 rfl
  have heps := FOpsLaws.eps_pos (K := K)
  have hbo := boundsOK_setGrid s00 dims per coords b (by rw [← hq.bounds]; exact hb) i
  have hmem : ∀ j < ∏ k, dims k, coords i j ∈ (s00.setGrid dims per coords).coords i := by
    intro j hj
    exact List.mem_map.2 ⟨j, List.mem_range.2 hj, rfl⟩
  refine ⟨i, ?_⟩
  rcases hi with hi | hi
  · left
    intro j hj
    have := (hbo _ (hmem j hj)).1
    have := not_le.1 hi
    linarith
  · right
    intro j hj
    have := (hbo _ (hmem j hj)).2
    have := not_le.1 hi
    linarith

/-- All starting positions given to `reset` are in the grid, and no new grid is set. -/
def InGridCalls (dims : Fin n → Nat) (cs : List (Call K n)) : Prop :=
  ∀ c ∈ cs, (∃ d t, c = .reset d t ∧ InGrid dims d) ∨ c = .next

theorem good_run (g : Gels K) (hg : KeepsSizes g) (hn : 1 ≤ n) : ∀ (cs : List (Call K n)) (s0 : Finder K n),
    Good s0 → InGrid s0.dims s0.dIndices → InGridCalls s0.dims cs →
    ∃ s, runCalls g s0 cs = .ok s ∧ Good s ∧ s.dims = s0.dims ∧ InGrid s.dims s.dIndices
  | [], s0, h, hi, _ => ⟨s0, rfl, h, rfl, hi⟩
  | c :: cs, s0, h, hi, hcs => by
    have hcs' : InGridCalls s0.dims cs := fun x hx => hcs x (List.mem_cons_of_mem _ hx)
    unfold runCalls
    rcases hcs c (List.mem_cons_self ..) with ⟨d, t, rfl, hd⟩ | rfl
    · exact good_run g hg hn cs (s0.reset d t) ⟨h.ready, h.dims, h.coords, okPos_of_inGrid _ h.dims d hd⟩ hd hcs'
    · obtain ⟨c1, s1, h1, h2, h3⟩ := good_next g hg hn s0 h
      have hd := (next_frame g s0 c1 s1 h1).2.2.1
      have hi' : InGrid s1.dims s1.dIndices := by
        rcases h3 with h3 | ⟨h3, _⟩
        · exact h3
        · rw [hd, h3]; exact hi
      obtain ⟨s, e, hs, hds, hsi⟩ := good_run g hg hn cs s1 h2 hi' (by rw [hd]; exact hcs')
      refine ⟨s, ?_, hs, hds.trans hd, hsi⟩
      simp only [Call.exec, h1, bind, Except.bind, pure, Except.pure]
      exact e

/-- **C34** On any grid with two nodes or more per axis, after `reset` with a position in the grid and any further
calls of `reset` (in the grid) and `next`, whatever the results of the library: no call is undefined, the position is
in the grid, and interpolation of any field of the size of the grid at this position reads in bounds. -/
theorem C34_indices_in_grid (g : Gels K) (hg : KeepsSizes g) (hn : 1 ≤ n) (s00 : Finder K n)
    (dims : Fin n → Nat) (hd : GoodDims dims) (per : Fin n → Int) (coords : Fin n → Nat → K) (d t : Fin n → K)
    (hdg : InGrid dims d) (cs : List (Call K n)) (hcs : InGridCalls dims cs) :
    ∃ s, runCalls g ((s00.setGrid dims per coords).reset d t) cs = .ok s ∧
      (∀ i, 0 ≤ s.dIndices i ∧ s.dIndices i ≤ (dims i : K) - 1) ∧
      (∀ field : List K, field.length = ∏ i, dims i → ∃ v, interp dims s.dIndices field = .ok v) ∧
      (∃ iw, getSrcIndicesAndWeights dims s.dIndices = .ok iw) ∧ ∃ e, s.getError = .ok e := by
  obtain ⟨s, h1, h2, h3, hin⟩ := good_run g hg hn cs ((s00.setGrid dims per coords).reset d t)
    ⟨ready_reset _ _ _ (ready_setGrid s00 dims per coords), hd, fun i => by simp [Finder.setGrid, Finder.reset],
      okPos_of_inGrid dims hd d hdg⟩ hdg hcs
  have h3 : s.dims = dims := h3
  rw [h3] at hin
  exact ⟨s, h1, hin, fun f hf => interp_isOk dims hd _ (okPos_of_inGrid dims hd _ hin) f hf, ⟨_, getSrc_ok dims hd _ hin⟩,
    getError_isOk s h2.dims h2.coords h2.okPos⟩

/-- The nodes of the grid are the image of their indices by `m ↦ c + A m`. -/
def AffineGrid (dims : Fin n → Nat) (c : Fin n → K) (A : Matrix (Fin n) (Fin n) K) (coords : Fin n → Nat → K) : Prop :=
  ∀ m : Fin n → Nat, (∀ i, m i < dims i) → ∀ i, coords i (rowMajor dims m) = c i + ∑ j, A i j * (m j : K)

/-- **C35** for a finder with any history: on a grid that is an invertible affine image of its indices (any number of
axes), from any start `d` in the grid, for the target at index position `t` in the grid, the first call of `next` moves
exactly to `t`; the error is 0; the code is 1 if the tolerance is positive and more than one step is allowed, and -1 if
only one is.  Along each axis the new grid is periodic or no earlier grid was. -/
theorem C35_affine_exact_reused (g : Gels K) (hg : GelsContract g) (hn : 1 ≤ n) (s00 : Finder K n)
    (dims : Fin n → Nat) (hd : GoodDims dims) (per : Fin n → Int) (hp0 : ∀ i, s00.indexPeriodicity i = 0 ∨ per i ≠ 0)
    (coords : Fin n → Nat → K)
    (c : Fin n → K) (A : Matrix (Fin n) (Fin n) K) (hA : A.det ≠ 0) (hgrid : AffineGrid dims c A coords)
    (d t : Fin n → K) (hdg : InGrid dims d) (htg : InGrid dims t) :
    ∃ code s', ((s00.setGrid dims per coords).reset d (fun i => c i + ∑ j, A i j * t j)).next g
        = .ok (code, s') ∧ s'.dIndices = t ∧ s'.getError = .ok 0 ∧
      (2 ≤ s00.nitermax → 0 < s00.tolpos → code = 1) ∧ (s00.nitermax ≤ 1 → code = -1) := by
  have hks : KeepsSizes g := hg.sizes
  set tp : Fin n → K := fun i => c i + ∑ j, A i j * t j with htp
  set s := (s00.setGrid dims per coords).reset d tp with hs
  have hready : Ready s := ready_reset _ _ _ (ready_setGrid _ dims per coords)
  obtain ⟨⟨b, hb⟩, slvr, hsl, hok⟩ := hready
  have hlen : ∀ i, (s.coords i).length = ∏ k, dims k := fun i => by simp [hs, Finder.setGrid, Finder.reset]
  have hval : ∀ i m, (∀ i, m i < dims i) → (s.coords i)[rowMajor dims m]? = some (c i + ∑ j, A i j * (m j : K)) := by
    intro i m hm
    have hlt := rowMajor_lt dims m hm
    show ((List.range (∏ k, dims k)).map (coords i))[rowMajor dims m]? = _
    rw [List.getElem?_map, List.getElem?_range hlt, Option.map_some, hgrid m hm i]
  have hint : ∀ x, InGrid dims x → ∀ i, interp dims x (s.coords i) = .ok (c i + ∑ j, A i j * x j) := fun x hx i =>
    interp_affine dims hd x hx (c i) (A i) (s.coords i) (hlen i) (hval i)
  have hsd : s.dims = dims := rfl
  have hsI : s.dIndices = d := rfl
  have hst : s.targetPoint = tp := rfl
  have heps := FOpsLaws.eps_pos (K := K)
  -- inside
  have hin : s.inside b = true := by
    unfold Finder.inside
    rw [List.all_eq_true]
    intro i _
    have hbo := boundsOK_setGrid s00 dims per coords b hb i
    obtain ⟨v, hv, h1, h2⟩ := C37_range dims hd t htg (s.coords i) (hlen i) (b.1 i) (b.2 i) (by
      intro m v _ hv
      exact hbo v (List.mem_of_getElem? hv))
    rw [hint t htg i, Except.ok.injEq] at hv
    simp only [Bool.and_eq_true, decide_eq_true_eq]
    rw [hst, htp]
    dsimp only
    rw [hv]
    constructor <;> linarith
  -- jacobian
  have hj : s.computeJacobianAndRHS = .ok (fun i j => A i j, fun i => tp i - (c i + ∑ j, A i j * d j)) := by
    unfold Finder.computeJacobianAndRHS
    rw [forAxes_ok _ (fun i => tp i - (c i + ∑ j, A i j * d j)) (fun i => by
      rw [hsd, hsI, hint d hdg i]; rfl)]
    simp only [bind, Except.bind]
    rw [forAxes_ok (fun i => forAxes fun j => _) (fun i j => A i j)]
    · rfl
    · intro i
      refine forAxes_ok _ _ fun j => ?_
      rw [hsd, hsI, hint _ (indsHi_inGrid dims hd d hdg j) i, hint _ (indsLo_inGrid dims d hdg j) i]
      simp only [pure, Except.pure]
      congr 1
      have hne : indsHi dims d j j - indsLo d j j ≠ 0 := sub_ne_zero.2 (hi_sub_lo dims hd d hdg j).ne'
      rw [div_eq_iff hne]
      have h1 : (c i + ∑ k, A i k * indsHi dims d j k) - (c i + ∑ k, A i k * indsLo d j k) =
          ∑ k, A i k * (indsHi dims d j k - indsLo d j k) := by
        rw [add_sub_add_left_eq_sub, ← Finset.sum_sub_distrib]
        exact Finset.sum_congr rfl fun k _ => by ring
      rw [h1, Finset.sum_eq_single j]
      · intro k _ hk
        unfold indsHi indsLo
        simp [hk]
      · intro h; exact absurd (Finset.mem_univ _) h
  -- solution
  have hsol : solution g (fun i j => A i j) (fun i => tp i - (c i + ∑ j, A i j * d j)) = fun i => t i - d i := by
    have h1 := solution_spec g hg hn A hA (fun i => tp i - (c i + ∑ j, A i j * d j))
    have h2 : A.mulVec (fun i => t i - d i) = fun i => tp i - (c i + ∑ j, A i j * d j) := by
      funext i
      rw [Matrix.mulVec, dotProduct, htp]
      dsimp only
      rw [add_sub_add_left_eq_sub, ← Finset.sum_sub_distrib]
      exact Finset.sum_congr rfl fun k _ => by ring
    have hu : IsUnit A := (Matrix.isUnit_iff_isUnit_det A).2 (isUnit_iff_ne_zero.2 hA)
    exact Matrix.mulVec_injective_of_isUnit hu (h1.trans h2.symm)
  have hper : ∀ i, s.indexPeriodicity i = 0 ∨ s.indexPeriodicity i = (dims i : K) := by
    intro i
    show (if per i ≠ 0 then (dims i : K) else s00.indexPeriodicity i) = 0 ∨
      (if per i ≠ 0 then (dims i : K) else s00.indexPeriodicity i) = _
    split_ifs with hpi
    · exact .inr rfl
    · exact .inl ((hp0 i).resolve_right hpi)
  have hm : s.moved g (fun i j => A i j) (fun i => tp i - (c i + ∑ j, A i j * d j)) = t := by
    funext i
    unfold Finder.moved
    rw [hsol, hsI, hsd]
    have : d i + (t i - d i) = t i := by ring
    rw [this]
    exact truncate_id _ _ (hd i).1 (hper i) _ (htg i).1 (htg i).2
  have heq := next_eq g hks hn s b hb slvr hsl hok
  rw [if_neg (by rw [hin]; decide), hj] at heq
  simp only [bind, Except.bind, hm] at heq
  set s1 : Finder K n := { s with
    slvr := some (afterSolve g n slvr (flatten2 fun i j => A i j) (flatten1 fun i => tp i - (c i + ∑ j, A i j * d j)))
    dIndices := t } with hs1
  have herr : s1.getError = .ok 0 := by
    have hp : s1.getPosition = .ok tp := forAxes_ok _ tp (fun i => hint t htg i)
    unfold Finder.getError
    rw [hp]
    simp only [bind, Except.bind, pure, Except.pure]
    have hz : ∀ (l : List (Fin n)), l.foldl (fun res i => res + (tp i - s1.targetPoint i) * (tp i - s1.targetPoint i)) (0 : K) = 0 := by
      intro l
      induction l with
      | nil => rfl
      | cons a l ih =>
        simp only [List.foldl_cons]
        have : tp a - s1.targetPoint a = 0 := sub_self _
        rw [this, mul_zero, add_zero]; exact ih
    rw [hz, FOpsLaws.sqrt_zero]
  rw [herr] at heq
  dsimp only at heq
  obtain ⟨code, s', hfin⟩ : ∃ code s', s1.finishStep 0 = (code, s') := ⟨_, _, rfl⟩
  rw [hfin] at heq
  refine ⟨code, s', heq, ?_⟩
  obtain ⟨f1, f2, f3, f4, f5, f6, f7, f8, f9, f10, f11⟩ := finishStep_spec s1 0 _ _ hfin.symm
  have e1 : s1.errorHistory = [] := rfl
  have e2 : s1.iter = 0 := rfl
  have e3 : s1.nitermax = s00.nitermax := rfl
  have e4 : s1.tolpos = s00.tolpos := rfl
  have hl : s'.errorHistory.length = 1 := by rw [f2, e1]; rfl
  rw [e2] at f1
  rw [e3] at f8 f9 f10
  rw [e4] at f8 f9
  have n2 : code ≠ -2 := fun h => by have := (f11 h).1; omega
  refine ⟨f4, f3.trans herr, ?_, ?_⟩
  · intro h2 htol
    rcases f7 with h | h | h | h
    · exact h
    · exact absurd htol (f9 h).1
    · have := f10 h; omega
    · exact absurd h n2
  · intro h1
    rcases f7 with h | h | h | h
    · have := (f8 h).2; omega
    · have := (f9 h).2.1; omega
    · exact h
    · exact absurd h n2

/-- **C35** On a grid that is an invertible affine image of its indices (any number of axes, any periodicity flags),
from any start `d` in the grid, for the target at index position `t` in the grid, the
first call of `next` moves exactly to `t`; the error is 0; the code is 1 if the tolerance is positive and more than
one step is allowed, and -1 if only one is. -/
theorem C35_affine_exact (g : Gels K) (hg : GelsContract g) (hn : 1 ≤ n) (nitermax : Int) (tolpos : K)
    (dims : Fin n → Nat) (hd : GoodDims dims) (per : Fin n → Int) (coords : Fin n → Nat → K)
    (c : Fin n → K) (A : Matrix (Fin n) (Fin n) K) (hA : A.det ≠ 0) (hgrid : AffineGrid dims c A coords)
    (d t : Fin n → K) (hdg : InGrid dims d) (htg : InGrid dims t) :
    ∃ code s', (((Finder.new nitermax tolpos).setGrid dims per coords).reset d (fun i => c i + ∑ j, A i j * t j)).next g
        = .ok (code, s') ∧ s'.dIndices = t ∧ s'.getError = .ok 0 ∧
      (2 ≤ nitermax → 0 < tolpos → code = 1) ∧ (nitermax ≤ 1 → code = -1) := by
  exact C35_affine_exact_reused g hg hn (Finder.new nitermax tolpos) dims hd per (fun _ => .inl rfl) coords c A hA hgrid d t hdg htg

/-! ### C36 -/

theorem foldl_min_start (f : Nat → K) (b c : K) (l : List Nat) :
    l.foldl (fun m j => if m < f j then m else f j) (min b c) = min b (l.foldl (fun m j => if m < f j then m else f j) c) := by
  induction l generalizing c with
  | nil => rfl
  | cons a l ih =>
    have h : ∀ m : K, (if m < f a then m else f a) = min m (f a) := fun m => by
      split_ifs with h
      · exact (min_eq_left h.le).symm
      · exact (min_eq_right (not_lt.1 h)).symm
    simp only [List.foldl_cons, h, min_assoc]
    exact ih _

theorem foldl_max_start (f : Nat → K) (b c : K) (l : List Nat) :
    l.foldl (fun m j => if f j < m then m else f j) (max b c) = max b (l.foldl (fun m j => if f j < m then m else f j) c) := by
  induction l generalizing c with
  | nil => rfl
  | cons a l ih =>
    have h : ∀ m : K, (if f a < m then m else f a) = max m (f a) := fun m => by
      split_ifs with h
      · exact (max_eq_left h.le).symm
      · exact (max_eq_right (not_lt.1 h)).symm
    simp only [List.foldl_cons, h, max_assoc]
    exact ih _

/-- What holds of every reachable finder. -/
structure Reach (nitermax : Int) (tolpos : K) (s : Finder K n) : Prop where
  nitermax : s.nitermax = nitermax
  tolpos : s.tolpos = tolpos
  bounds : ∀ b, s.bounds = some b → ∀ i, b.1 i ≤ FOps.big ∧ -FOps.big ≤ b.2 i

theorem reach_run (g : Gels K) (nitermax : Int) (tolpos : K) : ∀ (cs : List (Call K n)) (s0 s : Finder K n),
    Reach nitermax tolpos s0 → runCalls g s0 cs = .ok s → Reach nitermax tolpos s
  | [], s0, s, h, e => by simp only [runCalls, Except.ok.injEq] at e; exact e ▸ h
  | c :: cs, s0, s, h, e => by
    unfold runCalls at e
    obtain ⟨s1, h1, e⟩ := bind_ok_inv e
    refine reach_run g nitermax tolpos cs s1 s ?_ e
    cases c with
    | setGrid dims per coords =>
      simp only [Call.exec, Except.ok.injEq] at h1
      subst h1
      refine ⟨h.nitermax, h.tolpos, ?_⟩
      intro b hb i
      simp only [Finder.setGrid, Option.some.injEq] at hb
      subst hb
      dsimp only
      cases hb0 : s0.bounds with
      | none => exact ⟨(foldl_min_le _ _ _).1, (le_foldl_max _ _ _).1⟩
      | some b0 =>
        have := h.bounds b0 hb0 i
        exact ⟨(foldl_min_le _ _ _).1.trans this.1, this.2.trans (le_foldl_max _ _ _).1⟩
    | reset d t =>
      simp only [Call.exec, Except.ok.injEq] at h1
      subst h1
      exact ⟨h.nitermax, h.tolpos, h.bounds⟩
    | next =>
      simp only [Call.exec] at h1
      obtain ⟨⟨c1, s2⟩, h2, h1⟩ := bind_ok_inv h1
      simp only [pure, Except.pure, Except.ok.injEq] at h1
      subst h1
      obtain ⟨f1, f2, f3, _, f5, f6, f7⟩ := next_frame g s0 c1 s2 h2
      exact ⟨f5.trans h.nitermax, f6.trans h.tolpos, by rw [f2]; exact h.bounds⟩

/-- **C36, part.**  Missing: a grid smaller than an earlier one, or not periodic where an earlier one was; there the
claim is false (`C36_new_grid_refuted`, `C36_new_period_refuted`).  Proved: after any history, if along every axis the
new grid reaches at least as far as the bounds kept from earlier grids and is periodic wherever an earlier one was, the
finder searches on the new grid exactly like a newly built one. -/
theorem C36_new_grid_partial (g : Gels K) (hg : KeepsSizes g) (hn : 1 ≤ n) (nitermax : Int) (tolpos : K)
    (cs : List (Call K n)) (s : Finder K n) (hrun : runCalls g (Finder.new nitermax tolpos) cs = .ok s)
    (dims : Fin n → Nat) (per : Fin n → Int) (coords : Fin n → Nat → K)
    (hb : ∀ b, s.bounds = some b → ∀ i, (∃ j < ∏ k, dims k, coords i j ≤ b.1 i) ∧ ∃ j < ∏ k, dims k, b.2 i ≤ coords i j)
    (hp : ∀ i, s.indexPeriodicity i = 0 ∨ per i ≠ 0) (d t : Fin n → K) (fuel : Nat) :
    searchFrom g (s.setGrid dims per coords) d t fuel =
      searchFrom g ((Finder.new nitermax tolpos).setGrid dims per coords) d t fuel := by
  have hR := reach_run g nitermax tolpos cs _ s
    ⟨rfl, rfl, fun b h => by cases h⟩ hrun
  refine searchFrom_same g hg hn ((Finder.new nitermax tolpos).setGrid dims per coords) (s.setGrid dims per coords)
    (ready_setGrid _ _ _ _) (ready_setGrid _ _ _ _) ⟨rfl, ?_, ?_, rfl, hR.nitermax, hR.tolpos⟩ d t fuel
  · show some _ = some _
    congr 1
    cases hsb : s.bounds with
    | none => rfl
    | some b =>
      have h1 := hR.bounds b hsb
      have h2 := hb b hsb
      simp only [Finder.new, Option.getD_none, Option.getD_some]
      refine Prod.ext (funext fun i => ?_) (funext fun i => ?_)
      · dsimp only
        obtain ⟨⟨j, hj, hle⟩, _⟩ := h2 i
        have e := foldl_min_start (coords i) (b.1 i) FOps.big (List.range (∏ k, dims k))
        rw [min_eq_left (h1 i).1] at e
        rw [e, min_eq_right (((foldl_min_le _ _ _).2 j (List.mem_range.2 hj)).trans hle)]
      · dsimp only
        obtain ⟨_, j, hj, hle⟩ := h2 i
        have e := foldl_max_start (coords i) (b.2 i) (-FOps.big) (List.range (∏ k, dims k))
        rw [max_eq_left (h1 i).2] at e
        rw [e, max_eq_right (hle.trans ((le_foldl_max _ _ _).2 j (List.mem_range.2 hj)))]
  · funext i
    show (if per i ≠ 0 then (dims i : K) else s.indexPeriodicity i) = if per i ≠ 0 then (dims i : K) else 0
    rcases hp i with h | h
    · rw [h]
    · rw [if_pos h, if_pos h]

end exact

/-- A grid of one axis with nodes at `0, h, 2h, ...`. -/
def line1 (h : ℚ) : Fin 1 → Nat → ℚ := fun _ j => h * j

/-- **C36 is false** (bounding box).  The grid with nodes 0, 5, 10 is replaced by the grid with nodes 0, 1, 2.  For the
target 5, outside the new grid, a newly built finder returns -3, the reused one does not, whatever the library. -/
theorem C36_new_grid_refuted (g : Gels ℚ) (hg : KeepsSizes g) :
    (∃ r, searchFrom g ((Finder.new 10 (1 / 100) : Finder ℚ 1).setGrid ![3] ![0] (line1 1)) ![0] ![5] 1 = .ok (-3, r)) ∧
    ¬ ∃ r, searchFrom g (((Finder.new 10 (1 / 100) : Finder ℚ 1).setGrid ![3] ![0] (line1 5)).setGrid ![3] ![0] (line1 1))
      ![0] ![5] 1 = .ok (-3, r) := by
  constructor
  · refine ⟨(![0], []), ?_⟩
    unfold searchFrom searchLoop
    rw [next_eq g hg (by norm_num) _ _ rfl _ rfl (solverOK_new 1), if_pos (by decide +kernel)]
    rfl
  · rintro ⟨r, h⟩
    unfold searchFrom at h
    obtain ⟨⟨c1, s1⟩, h1, h⟩ := bind_ok_inv h
    simp only [pure, Except.pure, Except.ok.injEq, Prod.mk.injEq] at h
    unfold searchLoop at h1
    obtain ⟨⟨c2, s2⟩, h2, h1⟩ := bind_ok_inv h1
    have h3 : c2 = -3 := by
      dsimp only at h1
      split_ifs at h1 with h0
      · simp only [searchLoop, Except.ok.injEq, Prod.mk.injEq] at h1; omega
      · simp only [pure, Except.pure, Except.ok.injEq, Prod.mk.injEq] at h1; omega
    subst h3
    rw [next_eq g hg (by norm_num) _ _ rfl _ rfl (solverOK_new 1), if_neg (by decide +kernel)] at h2
    obtain ⟨jr, _, h2⟩ := bind_ok_inv h2
    obtain ⟨e, _, h2⟩ := bind_ok_inv h2
    rw [Except.ok.injEq] at h2
    have := (finishStep_spec _ _ _ _ h2.symm).2.2.2.2.2.2.1
    omega

/-- A library for systems of one equation. -/
def gels1 : Gels ℚ := fun r => { a := r.a, b := r.b.map (· / r.a.headD 1), info := 0 }

/-- **C36 is false** (periodicity).  A periodic grid of 3 nodes is replaced by the same grid, not periodic.  The reused
finder still wraps the index: it goes from 0 towards the target -1/4, just below the grid (within the larger bounds of a
third, earlier grid), to index 2 instead of stopping at 0. -/
theorem C36_new_period_refuted :
    (do let r ← searchFrom gels1 (((Finder.new 10 (1 / 100) : Finder ℚ 1).setGrid ![3] ![1] (line1 (-1))).setGrid ![3] ![0] (line1 1))
          ![0] ![-1 / 4] 1
        return r.2.1 0) = .ok 2 ∧
    (do let r ← searchFrom gels1 (((Finder.new 10 (1 / 100) : Finder ℚ 1).setGrid ![3] ![0] (line1 (-1))).setGrid ![3] ![0] (line1 1))
          ![0] ![-1 / 4] 1
        return r.2.1 0) = .ok (0 : ℚ) := by
  constructor <;> decide +kernel

/-! ### Examples -/

/-- The library keeps the sizes (hypothesis of C33, C34, C36). -/
example : KeepsSizes gels1 := fun r => by simp [gels1]

/-- A search on a grid with nodes 0, 2, 4, 6 for the target 5: converges at once to index 5/2. -/
example : (do let r ← searchFrom gels1 ((Finder.new 10 (1 / 100) : Finder ℚ 1).setGrid ![4] ![0] (line1 2)) ![0] ![5] 10
              return (r.1, r.2.1 0)) = .ok (1, 5 / 2) := by decide +kernel

/-- The same with one step allowed: the code is -1 although the target is reached (see DESIGN.md). -/
example : (do let r ← searchFrom gels1 ((Finder.new 1 (1 / 100) : Finder ℚ 1).setGrid ![4] ![0] (line1 2)) ![0] ![5] 10
              return (r.1, r.2.1 0)) = .ok (-1, 5 / 2) := by decide +kernel

/-- Hypotheses of C35 and C36_new_grid_partial for sheared 2D grids. -/
example : AffineGrid ![3, 4] ![1, 2] !![1, (1 : ℚ); 0, 2] (fun i k => ![1 + ((k / 4 : Nat) : ℚ) + ((k % 4 : Nat) : ℚ), 2 + 2 * ((k % 4 : Nat) : ℚ)] i) := by
  intro m hm i
  have h0 := hm 0
  have h1 := hm 1
  simp at h0 h1
  have e : rowMajor ![3, 4] m = m 0 * 4 + m 1 := by
    rw [rowMajor_succ, rowMajor_succ]; simp [rowMajor]
  have d : (m 0 * 4 + m 1) / 4 = m 0 := by omega
  have r : (m 0 * 4 + m 1) % 4 = m 1 := by omega
  rw [e]
  dsimp only
  rw [d, r]
  fin_cases i <;> simp [Fin.sum_univ_two] <;> ring

end Sg.Props
