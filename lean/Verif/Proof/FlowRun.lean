import Verif.Props.FlowInterp
/-
Flow interpolation: what `computeWeights` stores, for any arithmetic in which the projections are defined.
-/
namespace Sg.FlowInterp
open Sg.LinearSolve Sg.Triangulate Sg.QuadIntersect Sg.FindPoint Sg.QuadLine Sg.QuadFlows Sg.BoxIterator Sg.Spec Sg.Props

set_option linter.unusedSectionVars false
variable {F : Type} [Zero F] [One F] [Add F] [Sub F] [Mul F] [Div F] [Neg F] [LT F] [DecidableLT F]
  [LE F] [DecidableLE F] [DecidableEq F] [NatCast F] [IntCast F] [FOps F]

/-- The projections of the pieces are defined. -/
def PiecesOk (g : Gels F) : Prop := ∀ (s0 : Flows F) (q : Quad F) (pts : List (Pt F)), FlowsReached g s0 →
  ∃ s' p, pieces g pts (s0.setQuadPoints q) = .ok (s', p) ∧ FlowsReached g s'

/-- What is stored for a segment from `a` to `b` and the cell `k` with corners `q`. -/
def CellRun (g : Gels F) (srt : List F → List F) (q : Quad F) (a b : Pt F) (k : Nat) (l : List (Nat × (Fin 4 → F))) : Prop :=
  (overlapL q a b = true ∧ 2 ≤ (srt (collectedL g q a b)).length ∧ ∃ s0 s' p, FlowsReached g s0 ∧
    pieces g ((srt (collectedL g q a b)).map (linePoint a b)) (s0.setQuadPoints q) = .ok (s', p) ∧ l = [(k, p)]) ∨
  (¬ (overlapL q a b = true ∧ 2 ≤ (srt (collectedL g q a b)).length) ∧ l = [])

/-- Invariant of the computation. -/
structure RunOk (g : Gels F) (w : Work F) : Prop where
  ready : QuadIntersect.Ready w.isect.slvr
  reached : FlowsReached g w.proj
  table : TableOk w.weights

theorem srcStep_run {g : Gels F} (hg : FindPoint.KeepsSizes g) (hp : PiecesOk g) (srt : List F → List F) {n0 n1 : Nat} {p : Nat → Pt F} {src : Src F}
    (hs : SrcOk n0 n1 p src) (i : Nat) {j : Nat} (hj : j < src.numCells) {w : Work F} (h : RunOk g w) {a b : Pt F}
    (hl : w.isect.line = some ((a, b), lineBox a b)) :
    ∃ w' l, srcStep g srt src i j w = .ok w' ∧ RunOk g w' ∧ w'.isect.line = some ((a, b), lineBox a b) ∧
      CellRun g srt (cellOf n1 p j) a b j l ∧
      ∀ k, entries w'.weights k = if i = k then entries w.weights k ++ l else entries w.weights k := by
  set q := cellOf n1 p j with hq
  have hg' : QuadIntersect.KeepsSizes g := hg
  have ho : (w.isect.reset.setQuadPoints q).checkIfOverlap = .ok (overlapL q a b) := by
    unfold Line.checkIfOverlap Line.setQuadPoints Line.reset
    dsimp only
    rw [hl]
    rfl
  obtain ⟨sl, r, e⟩ := collectL_ok g hg' srt (w.isect.reset.setQuadPoints q) h.ready q _ a b _ rfl hl
  have hle : (w.isect.reset.setQuadPoints q).lambdas = [] := rfl
  rw [hle, List.nil_append] at e
  unfold srcStep
  rw [quadCoord_ok hs hj]
  simp only [bind, Except.bind, pure, Except.pure]
  rw [ho]
  dsimp only
  cases hov : overlapL q a b with
  | false =>
    refine ⟨_, [], rfl, ⟨h.ready, h.reached, h.table⟩, hl, Or.inr ⟨by simp [hov], rfl⟩, fun k => ?_⟩
    simp
  | true =>
    simp only [Bool.not_true, Bool.false_eq_true, if_false]
    rw [e]
    dsimp only
    by_cases h2 : 2 ≤ (srt (collectedL g q a b)).length
    · rw [if_pos (by simpa using h2)]
      obtain ⟨s', v, e', hr⟩ := hp w.proj q ((srt (collectedL g q a b)).map (linePoint a b)) h.reached
      rw [e']
      refine ⟨_, _, rfl, ⟨r, hr, push_ok h.table _ _⟩, hl, Or.inl ⟨hov, h2, w.proj, s', v, h.reached, e', rfl⟩, fun k => ?_⟩
      rw [entries_push h.table.sorted]
    · rw [if_neg (by simpa using h2)]
      refine ⟨_, [], rfl, ⟨r, h.reached, h.table⟩, hl, Or.inr ⟨by simp [h2], rfl⟩, fun k => ?_⟩
      simp

theorem dstStep_run {g : Gels F} (hg : FindPoint.KeepsSizes g) (hp : PiecesOk g) (srt : List F → List F) {n0 n1 : Nat} {p : Nat → Pt F} {src : Src F}
    (hs : SrcOk n0 n1 p src) {n : Nat} {P : Nat → Pt F} {dst : Dst F} (hd : DstOk n P dst) {i : Nat} (hi : i < dst.numCells)
    {w : Work F} (h : RunOk g w) :
    ∃ w' S, dstStep g srt src dst i w = .ok w' ∧ RunOk g w' ∧
      (∀ j < src.numCells, CellRun g srt (cellOf n1 p j) (P i) (P (i + 1)) j (S j)) ∧
      ∀ k, entries w'.weights k = if i = k then entries w.weights k ++ (List.range src.numCells).flatMap S else entries w.weights k := by
  unfold dstStep
  rw [lineCoord_ok hd hi]
  simp only [bind, Except.bind]
  obtain ⟨w', e, hw, -, S, hS, hE⟩ := forN_inv
    (fun j (w' : Work F) => RunOk g w' ∧ w'.isect.line = some ((P i, P (i + 1)), lineBox (P i) (P (i + 1))) ∧
      ∃ S : Nat → List (Nat × (Fin 4 → F)), (∀ j' < j, CellRun g srt (cellOf n1 p j') (P i) (P (i + 1)) j' (S j')) ∧
        ∀ k, entries w'.weights k = if i = k then entries w.weights k ++ (List.range j).flatMap S else entries w.weights k)
    (srcStep g srt src i) src.numCells { w with isect := w.isect.setLinePoints (P i) (P (i + 1)) }
    ⟨⟨h.ready, h.reached, h.table⟩, rfl, fun _ => [], by intro j hj; omega, fun k => by simp⟩ (by
      rintro j w1 hj ⟨hw, hl, S, hS, hE⟩
      obtain ⟨w2, l, e, hw2, hl2, hc, hE2⟩ := srcStep_run hg hp srt hs i hj hw hl
      refine ⟨w2, e, hw2, hl2, fun k => if k = j then l else S k, ?_, ?_⟩
      · intro j' hj'
        dsimp only
        split_ifs with hjj
        · subst hjj; exact hc
        · exact hS j' (by omega)
      · intro k
        rw [hE2 k, hE k, flatMap_range_update]
        split_ifs
        · rw [List.append_assoc]
        · rfl)
  exact ⟨w', S, e, hw, hS, hE⟩

/-- What `computeWeights` does. -/
theorem compute_run {g : Gels F} (hg : FindPoint.KeepsSizes g) (hp : PiecesOk g) (srt : List F → List F) {n0 n1 : Nat} {p : Nat → Pt F} {src : Src F}
    (hs : SrcOk n0 n1 p src) {n : Nat} {P : Nat → Pt F} {dst : Dst F} (hd : DstOk n P dst) (o : Flow F) (h1 : o.src = some src)
    (h2 : o.dst = some dst) (ht : TableOk o.weights) :
    ∃ o', ∃ S : Nat → Nat → List (Nat × (Fin 4 → F)), o.computeWeights g srt = .ok o' ∧ o'.src = some src ∧ o'.dst = some dst ∧ TableOk o'.weights ∧
      (∀ i < n - 1, ∀ j < (n0 - 1) * (n1 - 1), CellRun g srt (cellOf n1 p j) (P i) (P (i + 1)) j (S i j)) ∧
      ∀ i, entries o'.weights i = entries o.weights i ++
        if i < n - 1 then (List.range ((n0 - 1) * (n1 - 1))).flatMap (S i) else [] := by
  unfold Flow.computeWeights
  rw [h1, h2]
  simp only [bind, Except.bind, pure, Except.pure]
  obtain ⟨w', e, hw, S, hS, hE⟩ := forN_inv
    (fun i (w' : Work F) => RunOk g w' ∧ ∃ S : Nat → Nat → List (Nat × (Fin 4 → F)),
      (∀ i' < i, ∀ j < src.numCells, CellRun g srt (cellOf n1 p j) (P i') (P (i' + 1)) j (S i' j)) ∧
      ∀ k, entries w'.weights k = entries o.weights k ++ if k < i then (List.range src.numCells).flatMap (S k) else [])
    (dstStep g srt src dst) dst.numCells { isect := Line.new, proj := Flows.new, weights := o.weights }
    ⟨⟨ready_new, ⟨[], rfl⟩, ht⟩, fun _ _ => [], by intro j hj; omega, fun k => by simp⟩ (by
      rintro i w1 hi ⟨hw, S, hS, hE⟩
      obtain ⟨w2, T, e, hw2, hc, hE2⟩ := dstStep_run hg hp srt hs hd hi hw
      refine ⟨w2, e, hw2, fun k => if k = i then T else S k, ?_, ?_⟩
      · intro j' hj'
        dsimp only
        split_ifs with hjj
        · subst hjj; exact hc
        · exact hS j' (by omega)
      · intro k
        rw [hE2 k, hE k]
        by_cases hk : i = k
        · subst hk
          simp
        · rw [if_neg hk]
          by_cases hlt : k < i
          · rw [if_pos hlt, if_pos (by omega)]; dsimp only; rw [if_neg (by omega)]
          · rw [if_neg hlt, if_neg (by omega)])
  rw [e]
  refine ⟨_, S, rfl, rfl, rfl, hw.table, ?_, ?_⟩
  · rw [← hs.numCells, ← hd.numCells]; exact hS
  · rw [← hs.numCells, ← hd.numCells]; exact hE


/-- Setting both grids, computing the weights and applying them, with a new object. -/
theorem flow_run (pert : Nat → Nat → Nat → F) (g : Gels F) (hg : FindPoint.KeepsSizes g) (hp : PiecesOk g) (srt : List F → List F)
    (n0 n1 : Nat) (h0 : 2 ≤ n0) (h1 : 2 ≤ n1) (hf : n0 * n1 ≤ 1073741824) (xs ys : List F)
    (hx : n0 * n1 ≤ xs.length) (hy : n0 * n1 ≤ ys.length) (n : Nat) (hn : 1 ≤ n) (us vs : List F) (hu : n ≤ us.length)
    (hv : n ≤ vs.length) :
    ∃ S : Nat → Nat → List (Nat × (Fin 4 → F)),
      (∀ i < n - 1, ∀ j < (n0 - 1) * (n1 - 1), CellRun g srt (cellOf n1 (nodeAt xs ys) j)
        (lineAt pert n us vs i) (lineAt pert n us vs (i + 1)) j (S i j)) ∧
      ∀ x y : List F, (n0 - 1) * n1 ≤ x.length → n0 * (n1 - 1) ≤ y.length → ∀ d : List F, n - 1 ≤ d.length →
        ∃ d', flowWith pert g srt [] n0 n1 xs ys n us vs 1 x y d = .ok d' ∧ d'.length = d.length ∧
          (∀ i, n - 1 ≤ i → d'[i]? = d[i]?) ∧
          ∀ i < n - 1, d'[i]? = if (List.range ((n0 - 1) * (n1 - 1))).flatMap (S i) = [] then d[i]? else
            some (flowSum n0 n1 x y ((List.range ((n0 - 1) * (n1 - 1))).flatMap (S i))) := by
  obtain ⟨s, es, hs⟩ := setSrcGrid_ok (Flow.new : Flow F) (by omega) (by omega) hf hx hy
  obtain ⟨t, et, ht⟩ := setDstGrid_ok pert { (Flow.new : Flow F) with src := some s } hn hu hv
  obtain ⟨o1, S, e1, s1, d1, t1, hS, hE⟩ := compute_run hg hp srt hs ht
    ({ src := some s, dst := some t, weights := [] } : Flow F) rfl rfl tableOk_nil
  have hin := (compute_table e1).2.2.2 (n - 1) ((n0 - 1) * (n1 - 1))
    (fun d hd => by cases hd; exact ht.numCells.le) (fun d hd => by cases hd; exact hs.numCells.le) (tableIn_nil _ _)
  have hle : (n0 - 1) * (n1 - 1) ≤ n0 * n1 := Nat.mul_le_mul (by omega) (by omega)
  refine ⟨S, hS, ?_⟩
  intro x y hxl hyl d hd
  obtain ⟨d', ed, hl, hv'⟩ := apply_ok hs h0 h1 ⟨hxl, hyl⟩ o1 s1 t1 d (fun e he => by
    have := hin.lt e he
    refine ⟨this.1.trans_le hd, fun c hc => ?_⟩
    have := this.2 c hc
    omega)
  refine ⟨d', ?_, hl, fun i hi => ?_, fun i hi => ?_⟩
  · unfold flowWith
    refine bind_eq ?_ ed
    simp only [List.nil_append, List.cons_append, runFlowCalls, FlowCall.exec, List.replicate_succ, List.replicate_zero]
    exact bind_eq es (bind_eq et (bind_eq e1 rfl))
  · have hent : entries o1.weights i = [] := by rw [hE i, if_neg (by omega)]; rfl
    rw [hv' i, if_pos hent]
  · have hent : entries o1.weights i = (List.range ((n0 - 1) * (n1 - 1))).flatMap (S i) := by
      rw [hE i, if_pos hi]; rfl
    rw [hv' i, hent]

end Sg.FlowInterp
