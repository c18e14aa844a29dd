import Verif.Proof.FlowApply
import Verif.Props.QuadFlows
import Verif.Props.QuadLine
/- Flow interpolation: what `computeWeights` does. -/
namespace Sg.FlowInterp
open Sg.LinearSolve Sg.Triangulate Sg.QuadIntersect Sg.FindPoint Sg.QuadLine Sg.QuadFlows Sg.BoxIterator Sg.Spec Sg.Props

section generic
set_option linter.unusedSectionVars false
variable {F : Type} [Zero F] [One F] [Add F] [Sub F] [Mul F] [Div F] [Neg F] [LT F] [DecidableLT F]
  [LE F] [DecidableLE F] [DecidableEq F] [NatCast F] [IntCast F] [FOps F]

/-! ### Weights are added to those present -/

/-- Two states of the computation that differ by the entries `w0` present before one of them. -/
structure Ahead (w0 : Weights F) (a b : Work F) : Prop where
  isect : a.isect = b.isect
  proj : a.proj = b.proj
  ta : TableOk a.weights
  tb : TableOk b.weights
  entries : ∀ k, entries a.weights k = entries w0 k ++ entries b.weights k

theorem srcStep_ahead (g : Gels F) (srt : List F → List F) (src : Src F) (i j : Nat) {w0 : Weights F} {a b : Work F}
    (h : Ahead w0 a b) : Cxx.Rel (Ahead w0) (srcStep g srt src i j a) (srcStep g srt src i j b) := by
  obtain ⟨ai, ap, aw⟩ := a
  obtain ⟨bi, bp, bw⟩ := b
  obtain ⟨h1, h2, ta, tb, he⟩ := h
  dsimp only at h1 h2 ta tb he
  subst h1 h2
  unfold srcStep
  simp only [bind, Except.bind, pure, Except.pure]
  cases src.quadCoord j with
  | error e => exact Or.inr ⟨e, rfl, rfl⟩
  | ok q =>
    dsimp only
    cases (ai.reset.setQuadPoints q).checkIfOverlap with
    | error e => exact Or.inr ⟨e, rfl, rfl⟩
    | ok o =>
      dsimp only
      cases o with
      | false => exact Or.inl ⟨_, _, rfl, rfl, rfl, rfl, ta, tb, he⟩
      | true =>
        cases (ai.reset.setQuadPoints q).collectIntersectPoints g srt with
        | error e => exact Or.inr ⟨e, rfl, rfl⟩
        | ok r =>
          dsimp only
          by_cases hl : 2 ≤ r.2.length
          · simp only [if_pos hl]
            cases pieces g r.2 (ap.setQuadPoints q) with
            | error e => exact Or.inr ⟨e, rfl, rfl⟩
            | ok f =>
              refine Or.inl ⟨_, _, rfl, rfl, rfl, rfl, push_ok ta _ _, push_ok tb _ _, ?_⟩
              intro k
              dsimp only
              rw [entries_push ta.sorted, entries_push tb.sorted, he]
              split_ifs
              · rw [List.append_assoc]
              · rfl
          · simp only [if_neg hl]
            exact Or.inl ⟨_, _, rfl, rfl, rfl, rfl, ta, tb, he⟩

theorem dstStep_ahead (g : Gels F) (srt : List F → List F) (src : Src F) (dst : Dst F) (i : Nat) {w0 : Weights F} {a b : Work F}
    (h : Ahead w0 a b) : Cxx.Rel (Ahead w0) (dstStep g srt src dst i a) (dstStep g srt src dst i b) := by
  unfold dstStep
  simp only [bind, Except.bind]
  cases dst.lineCoord i with
  | error e => exact Or.inr ⟨e, rfl, rfl⟩
  | ok ab =>
    dsimp only
    refine forN_rel (fun _ => Ahead w0) _ _ _ _ _ ?_ fun k s t _ h => srcStep_ahead g srt src i k h
    exact ⟨by rw [h.isect], h.proj, h.ta, h.tb, h.entries⟩

/-- The computation that starts without weights, and the one that starts with weights `w0`. -/
theorem compute_ahead (g : Gels F) (srt : List F → List F) (o : Flow F) (ht : TableOk o.weights) :
    Cxx.Rel (fun a b => a.src = o.src ∧ a.dst = o.dst ∧ b.src = o.src ∧ b.dst = o.dst ∧ TableOk a.weights ∧ TableOk b.weights ∧
        ∀ k, entries a.weights k = entries o.weights k ++ entries b.weights k)
      (o.computeWeights g srt) (({ o with weights := [] } : Flow F).computeWeights g srt) := by
  unfold Flow.computeWeights
  cases hd : o.dst with
  | none => exact Or.inr ⟨_, rfl, rfl⟩
  | some dst =>
    cases hs : o.src with
    | none =>
      dsimp only
      by_cases h0 : dst.numCells = 0
      · rw [if_pos h0, if_pos h0]
        exact Or.inl ⟨_, _, rfl, rfl, hs, hd, rfl, rfl, ht, tableOk_nil, fun k => by simp [entries]⟩
      · rw [if_neg h0, if_neg h0]
        exact Or.inr ⟨_, rfl, rfl⟩
    | some src =>
      have := forN_rel (fun _ => Ahead o.weights) (dstStep g srt src dst) (dstStep g srt src dst) dst.numCells
        { isect := Line.new, proj := Flows.new, weights := o.weights } { isect := Line.new, proj := Flows.new, weights := [] }
        ⟨rfl, rfl, ht, tableOk_nil, fun k => by simp [entries]⟩ (fun k s t _ h => dstStep_ahead g srt src dst k h)
      simp only [bind, Except.bind, pure, Except.pure]
      rcases this with ⟨a, b, e1, e2, h⟩ | ⟨e, e1, e2⟩
      · rw [e1, e2]
        exact Or.inl ⟨_, _, rfl, rfl, rfl, rfl, rfl, rfl, h.ta, h.tb, h.entries⟩
      · rw [e1, e2]
        exact Or.inr ⟨e, rfl, rfl⟩

theorem runFlows_append (g : Gels F) : ∀ (os os' : List (FlowOp F)) (s s' s'' : Flows F), runFlows g s os = .ok s' →
    runFlows g s' os' = .ok s'' → runFlows g s (os ++ os') = .ok s''
  | [], os', s, s', s'', h, h' => by cases h; exact h'
  | o :: os, os', s, s', s'', h, h' => by
    unfold runFlows at h
    obtain ⟨s1, h1, h⟩ := bind_ok_inv h
    show (o.exec g s >>= fun s => runFlows g s (os ++ os')) = _
    rw [h1]
    exact runFlows_append g os os' s1 s' s'' h h'

theorem flowsReached_step {g : Gels F} {s s' : Flows F} (h : FlowsReached g s) (o : FlowOp F) (e : o.exec g s = .ok s') :
    FlowsReached g s' := by
  obtain ⟨os, h⟩ := h
  exact ⟨os ++ [o], runFlows_append g os [o] _ _ _ h (bind_eq e rfl)⟩

/-- The result of the box test. -/
def overlapL (q : Quad F) (a b : Pt F) : Bool :=
  decide (stdMax (quadBox q).min.1 (lineBox a b).min.1 ≤ stdMin (quadBox q).max.1 (lineBox a b).max.1) &&
      decide (stdMax (quadBox q).min.2 (lineBox a b).min.2 ≤ stdMin (quadBox q).max.2 (lineBox a b).max.2)

end generic

section exact
set_option linter.unusedSectionVars false
variable {K : Type} [Field K] [LinearOrder K] [IsStrictOrderedRing K] [FloorRing K] [FOps K] [FOpsLaws K]

/-- The index position a search finds. -/
def foundX (g : Gels K) (f : Finder K 2) (p : Pt K) : Fin 2 → K :=
  match findIndices g f p with
  | .ok r => r.2.1
  | .error _ => fun _ => 0

theorem foundX_eq (g : Gels K) (hg : FindPoint.KeepsSizes g) {q : Quad K} {f f' : Finder K 2} (h : HasQuad q f)
    (h' : HasQuad q f') (hs : SameGrid f f') (p : Pt K) :
    ∃ c f'', findIndices g f' p = .ok (c, foundX g f p, f'') ∧ HasQuad q f'' ∧ SameGrid f f'' ∧ InCell (foundX g f p) := by
  obtain ⟨c, x, f1, e1, -, -, hin, -⟩ := findIndices_ok g hg h p
  obtain ⟨c', x', f2, e2, q2, s2, -, -⟩ := findIndices_ok g hg h' p
  have hx : foundX g f p = x := by unfold foundX; rw [e1]
  have := findIndices_same g hg h.ready h'.ready hs p _ _ _ _ _ _ e1 e2
  refine ⟨c', f2, ?_, q2, sameGrid_trans hs s2, ?_⟩
  · rw [hx, this.2, e2]
  · rw [hx]; exact inGrid_inCell hin

/-- The sum of the projections of the pieces. -/
def pieceSum (X : Pt K → Fin 2 → K) (pts : List (Pt K)) (n : Nat) (e : Fin 4) : K :=
  ∑ i ∈ Finset.range n, projOf (X (pts.getD i (0, 0))) (X (pts.getD (i + 1) (0, 0))) e

theorem pieces_ok (g : Gels K) (hg : FindPoint.KeepsSizes g) (q : Quad K) (s0 : Flows K) (h0 : FlowsReached g s0)
    (pts : List (Pt K)) :
    ∃ s', pieces g pts (s0.setQuadPoints q) =
        .ok (s', pieceSum (foundX g (s0.setQuadPoints q).finder) pts (pts.length - 1)) ∧ FlowsReached g s' := by
  set X := foundX g (s0.setQuadPoints q).finder with hX
  have hq0 : HasQuad q (s0.setQuadPoints q).finder := hasQuad_set (flowsReached_finder g h0)
  have hr0 : FlowsReached g (s0.setQuadPoints q) := flowsReached_step h0 (.setQuad q) rfl
  obtain ⟨⟨s', p'⟩, e, hr, -, -, rfl⟩ := forN_inv
    (fun i (s : Flows K × (Fin 4 → K)) => FlowsReached g s.1 ∧ HasQuad q s.1.finder ∧
      SameGrid (s0.setQuadPoints q).finder s.1.finder ∧ s.2 = pieceSum X pts i)
    (fun i (s : Flows K × (Fin 4 → K)) => do
      let a ← vget pts i
      let b ← vget pts (i + 1)
      let (f, _) ← (s.1.setLinePoints a b).computeProjections g
      let p0 ← f.getProjection 0
      let p1 ← f.getProjection 1
      let p2 ← f.getProjection 2
      let p3 ← f.getProjection 3
      return (f, fun e => match e with | 0 => s.2 0 + p0 | 1 => s.2 1 + p1 | 2 => s.2 2 + p2 | 3 => s.2 3 + p3))
    (pts.length - 1) (s0.setQuadPoints q, fun _ => 0)
    ⟨hr0, hq0, sameGrid_refl _, by funext e; simp [pieceSum]⟩ (by
      rintro i ⟨s, acc⟩ hi ⟨hr, hq, hs, rfl⟩
      dsimp only at hr hq hs
      set a := pts.getD i (0, 0) with ha
      set b := pts.getD (i + 1) (0, 0) with hb
      have va : vget pts i = .ok a := vget_eq_ok.mpr (by
        rw [ha, List.getD_eq_getElem?_getD, List.getElem?_eq_getElem (by omega)]; rfl)
      have vb : vget pts (i + 1) = .ok b := vget_eq_ok.mpr (by
        rw [hb, List.getD_eq_getElem?_getD, List.getElem?_eq_getElem (by omega)]; rfl)
      obtain ⟨ca, fa, e1, qa, sa, -⟩ := foundX_eq g hg hq0 hq hs a
      obtain ⟨cb, fb, e2, qb, sb, -⟩ := foundX_eq g hg hq0 qa sa b
      have hc := (project_eq g s a b _ _ _ _ _ _ e1 e2).2
      refine ⟨_, bind_eq va (bind_eq vb (bind_eq hc (bind_eq rfl (bind_eq rfl (bind_eq rfl (bind_eq rfl rfl)))))), ?_, qb, sb, ?_⟩
      · refine flowsReached_step (s := s.setLinePoints a b) (flowsReached_step hr (.setLine a b) rfl) .compute ?_
        exact bind_eq hc rfl
      · funext e
        have : pieceSum X pts (i + 1) e = pieceSum X pts i e + projOf (X a) (X b) e := by
          unfold pieceSum; rw [Finset.sum_range_succ]
        rw [this]
        fin_cases e <;> rfl)
  exact ⟨s', e, hr⟩

/-- The flow of a potential telescopes. -/
theorem pieceSum_potential (X : Pt K → Fin 2 → K) (pts : List (Pt K)) (n : Nat) (v : Fin 4 → K) :
    flowDot (pieceSum X pts n) (edgeDiff v) = bilin v (X (pts.getD n (0, 0))) - bilin v (X (pts.getD 0 (0, 0))) := by
  induction n with
  | zero => simp [pieceSum, flowDot]
  | succ n ih =>
    have h := proj_potential (X (pts.getD n (0, 0))) (X (pts.getD (n + 1) (0, 0))) v
    have e : ∀ e, pieceSum X pts (n + 1) e = pieceSum X pts n e + projOf (X (pts.getD n (0, 0))) (X (pts.getD (n + 1) (0, 0))) e := by
      intro e; unfold pieceSum; rw [Finset.sum_range_succ]
    unfold flowDot at h ih ⊢
    simp only [e]
    linear_combination h + ih

/-- What is stored for a segment from `a` to `b` and the cell `k` with corners `q`. -/
def CellSpec (g : Gels K) (srt : List K → List K) (q : Quad K) (a b : Pt K) (k : Nat) (l : List (Nat × (Fin 4 → K))) : Prop :=
  (overlapL q a b = true ∧ 2 ≤ (srt (collectedL g q a b)).length ∧ ∃ s0, FlowsReached g s0 ∧
    l = [(k, pieceSum (foundX g (s0.setQuadPoints q).finder) ((srt (collectedL g q a b)).map (linePoint a b))
      ((srt (collectedL g q a b)).length - 1))]) ∨
  (¬ (overlapL q a b = true ∧ 2 ≤ (srt (collectedL g q a b)).length) ∧ l = [])

/-- Invariant of the computation. -/
structure WorkOk (g : Gels K) (w : Work K) : Prop where
  ready : QuadIntersect.Ready w.isect.slvr
  reached : FlowsReached g w.proj
  table : TableOk w.weights

theorem srcStep_spec {g : Gels K} (hg : FindPoint.KeepsSizes g) (srt : List K → List K) {n0 n1 : Nat} {p : Nat → Pt K} {src : Src K}
    (hs : SrcOk n0 n1 p src) (i : Nat) {j : Nat} (hj : j < src.numCells) {w : Work K} (h : WorkOk g w) {a b : Pt K}
    (hl : w.isect.line = some ((a, b), lineBox a b)) :
    ∃ w' l, srcStep g srt src i j w = .ok w' ∧ WorkOk g w' ∧ w'.isect.line = some ((a, b), lineBox a b) ∧
      CellSpec g srt (cellOf n1 p j) a b j l ∧
      ∀ k, entries w'.weights k = if i = k then entries w.weights k ++ l else entries w.weights k := by
  set q := cellOf n1 p j with hq
  have hg' : QuadIntersect.KeepsSizes g := hg
  have ho : (w.isect.reset.setQuadPoints q).checkIfOverlap = .ok (overlapL q a b) := by
    unfold Line.checkIfOverlap Line.setQuadPoints Line.reset
    dsimp only
    rw [hl]
    rfl
  obtain ⟨sl, r, e⟩ := collectL_ok g hg' srt (w.isect.reset.setQuadPoints q) h.ready q _ a b _ rfl hl
  have hle : (w.isect.reset.setQuadPoints q).lambdas = [] := rfl
  rw [hle, List.nil_append] at e
  unfold srcStep
  rw [quadCoord_ok hs hj]
  simp only [bind, Except.bind, pure, Except.pure]
  rw [ho]
  dsimp only
  cases hov : overlapL q a b with
  | false =>
    refine ⟨_, [], rfl, ⟨h.ready, h.reached, h.table⟩, hl, Or.inr ⟨by simp [hov], rfl⟩, fun k => ?_⟩
    simp
  | true =>
    simp only [Bool.not_true, Bool.false_eq_true, if_false]
    rw [e]
    dsimp only
    by_cases h2 : 2 ≤ (srt (collectedL g q a b)).length
    · rw [if_pos (by simpa using h2)]
      obtain ⟨s', e', hr⟩ := pieces_ok g hg q w.proj h.reached ((srt (collectedL g q a b)).map (linePoint a b))
      rw [e']
      rw [List.length_map]
      refine ⟨_, _, rfl, ⟨r, hr, push_ok h.table _ _⟩, hl, Or.inl ⟨hov, h2, w.proj, h.reached, rfl⟩, fun k => ?_⟩
      rw [entries_push h.table.sorted]
    · rw [if_neg (by simpa using h2)]
      refine ⟨_, [], rfl, ⟨r, h.reached, h.table⟩, hl, Or.inr ⟨by simp [h2], rfl⟩, fun k => ?_⟩
      simp

theorem flatMap_range_update {α : Type} (S : Nat → List α) (n : Nat) (l : List α) :
    (List.range (n + 1)).flatMap (fun k => if k = n then l else S k) = (List.range n).flatMap S ++ l := by
  rw [List.range_succ, List.flatMap_append]
  congr 1
  · refine List.flatMap_congr fun k hk => ?_
    rw [if_neg (by have := List.mem_range.mp hk; omega)]
  · simp

theorem dstStep_spec {g : Gels K} (hg : FindPoint.KeepsSizes g) (srt : List K → List K) {n0 n1 : Nat} {p : Nat → Pt K} {src : Src K}
    (hs : SrcOk n0 n1 p src) {n : Nat} {P : Nat → Pt K} {dst : Dst K} (hd : DstOk n P dst) {i : Nat} (hi : i < dst.numCells)
    {w : Work K} (h : WorkOk g w) :
    ∃ w' S, dstStep g srt src dst i w = .ok w' ∧ WorkOk g w' ∧
      (∀ j < src.numCells, CellSpec g srt (cellOf n1 p j) (P i) (P (i + 1)) j (S j)) ∧
      ∀ k, entries w'.weights k = if i = k then entries w.weights k ++ (List.range src.numCells).flatMap S else entries w.weights k := by
  unfold dstStep
  rw [lineCoord_ok hd hi]
  simp only [bind, Except.bind]
  obtain ⟨w', e, hw, -, S, hS, hE⟩ := forN_inv
    (fun j (w' : Work K) => WorkOk g w' ∧ w'.isect.line = some ((P i, P (i + 1)), lineBox (P i) (P (i + 1))) ∧
      ∃ S : Nat → List (Nat × (Fin 4 → K)), (∀ j' < j, CellSpec g srt (cellOf n1 p j') (P i) (P (i + 1)) j' (S j')) ∧
        ∀ k, entries w'.weights k = if i = k then entries w.weights k ++ (List.range j).flatMap S else entries w.weights k)
    (srcStep g srt src i) src.numCells { w with isect := w.isect.setLinePoints (P i) (P (i + 1)) }
    ⟨⟨h.ready, h.reached, h.table⟩, rfl, fun _ => [], by intro j hj; omega, fun k => by simp⟩ (by
      rintro j w1 hj ⟨hw, hl, S, hS, hE⟩
      obtain ⟨w2, l, e, hw2, hl2, hc, hE2⟩ := srcStep_spec hg srt hs i hj hw hl
      refine ⟨w2, e, hw2, hl2, fun k => if k = j then l else S k, ?_, ?_⟩
      · intro j' hj'
        dsimp only
        split_ifs with hjj
        · subst hjj; exact hc
        · exact hS j' (by omega)
      · intro k
        rw [hE2 k, hE k, flatMap_range_update]
        split_ifs
        · rw [List.append_assoc]
        · rfl)
  exact ⟨w', S, e, hw, hS, hE⟩

/-- What `computeWeights` does. -/
theorem compute_spec {g : Gels K} (hg : FindPoint.KeepsSizes g) (srt : List K → List K) {n0 n1 : Nat} {p : Nat → Pt K} {src : Src K}
    (hs : SrcOk n0 n1 p src) {n : Nat} {P : Nat → Pt K} {dst : Dst K} (hd : DstOk n P dst) (o : Flow K) (h1 : o.src = some src)
    (h2 : o.dst = some dst) (ht : TableOk o.weights) :
    ∃ o', ∃ S : Nat → Nat → List (Nat × (Fin 4 → K)), o.computeWeights g srt = .ok o' ∧ o'.src = some src ∧ o'.dst = some dst ∧ TableOk o'.weights ∧
      (∀ i < n - 1, ∀ j < (n0 - 1) * (n1 - 1), CellSpec g srt (cellOf n1 p j) (P i) (P (i + 1)) j (S i j)) ∧
      ∀ i, entries o'.weights i = entries o.weights i ++
        if i < n - 1 then (List.range ((n0 - 1) * (n1 - 1))).flatMap (S i) else [] := by
  unfold Flow.computeWeights
  rw [h1, h2]
  simp only [bind, Except.bind, pure, Except.pure]
  obtain ⟨w', e, hw, S, hS, hE⟩ := forN_inv
    (fun i (w' : Work K) => WorkOk g w' ∧ ∃ S : Nat → Nat → List (Nat × (Fin 4 → K)),
      (∀ i' < i, ∀ j < src.numCells, CellSpec g srt (cellOf n1 p j) (P i') (P (i' + 1)) j (S i' j)) ∧
      ∀ k, entries w'.weights k = entries o.weights k ++ if k < i then (List.range src.numCells).flatMap (S k) else [])
    (dstStep g srt src dst) dst.numCells { isect := Line.new, proj := Flows.new, weights := o.weights }
    ⟨⟨ready_new, ⟨[], rfl⟩, ht⟩, fun _ _ => [], by intro j hj; omega, fun k => by simp⟩ (by
      rintro i w1 hi ⟨hw, S, hS, hE⟩
      obtain ⟨w2, T, e, hw2, hc, hE2⟩ := dstStep_spec hg srt hs hd hi hw
      refine ⟨w2, e, hw2, fun k => if k = i then T else S k, ?_, ?_⟩
      · intro j' hj'
        dsimp only
        split_ifs with hjj
        · subst hjj; exact hc
        · exact hS j' (by omega)
      · intro k
        rw [hE2 k, hE k]
        by_cases hk : i = k
        · subst hk
          simp
        · rw [if_neg hk]
          by_cases hlt : k < i
          · rw [if_pos hlt, if_pos (by omega)]; dsimp only; rw [if_neg (by omega)]
          · rw [if_neg hlt, if_neg (by omega)])
  rw [e]
  refine ⟨_, S, rfl, rfl, rfl, hw.table, ?_, ?_⟩
  · rw [← hs.numCells, ← hd.numCells]; exact hS
  · rw [← hs.numCells, ← hd.numCells]; exact hE

/-! ### Potentials -/

/-- The nodal values of cell `k`. -/
def cellVals (n1 : Nat) (phi : Nat → K) (k : Nat) (i : Fin 4) : K :=
  match i with
  | 0 => phi (k / (n1 - 1) * n1 + k % (n1 - 1))
  | 1 => phi ((k / (n1 - 1) + 1) * n1 + k % (n1 - 1))
  | 2 => phi ((k / (n1 - 1) + 1) * n1 + (k % (n1 - 1) + 1))
  | 3 => phi (k / (n1 - 1) * n1 + (k % (n1 - 1) + 1))

/-- The edge data of cell `k`. -/
def cellEdges (n0 n1 : Nat) (x y : List K) (k : Nat) (e : Fin 4) : K :=
  let i := k / (n1 - 1) % (n0 - 1)
  let j := k % (n1 - 1)
  match e with
  | 0 => x.getD (i * n1 + j) 0
  | 1 => x.getD (i * n1 + (j + 1)) 0
  | 2 => y.getD (i * (n1 - 1) + j) 0
  | 3 => y.getD ((i + 1) * (n1 - 1) + j) 0

theorem addCell_eq (n0 n1 : Nat) (x y : List K) (acc : K) (c : Nat × (Fin 4 → K)) :
    addCell n0 n1 x y acc c = acc + flowDot c.2 (cellEdges n0 n1 x y c.1) := by
  simp only [addCell, flowDot, cellEdges]
  ring

theorem flowSum_eq (n0 n1 : Nat) (x y : List K) (l : List (Nat × (Fin 4 → K))) :
    flowSum n0 n1 x y l = (l.map fun c => flowDot c.2 (cellEdges n0 n1 x y c.1)).sum := by
  have : ∀ acc, l.foldl (addCell n0 n1 x y) acc = acc + (l.map fun c => flowDot c.2 (cellEdges n0 n1 x y c.1)).sum := by
    induction l with
    | nil => intro acc; simp
    | cons c l ih => intro acc; rw [List.foldl_cons, ih, addCell_eq, List.map_cons, List.sum_cons]; ring
  unfold flowSum
  rw [this]; ring

theorem sum_flatMap_range {α : Type} (S : Nat → List α) (f : α → K) (n : Nat) :
    (((List.range n).flatMap S).map f).sum = ∑ k ∈ Finset.range n, ((S k).map f).sum := by
  induction n with
  | zero => simp
  | succ n ih => rw [List.range_succ, List.flatMap_append, List.map_append, List.sum_append, ih, Finset.sum_range_succ]; simp

end exact
end Sg.FlowInterp
