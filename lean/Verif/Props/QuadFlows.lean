import Verif.Proof.QuadFlows
import Verif.Proof.Witness
/-
Properties C68 and C69 of the projections of the edge basis functions of a quadrilateral on a segment, in exact arithmetic.
`g` is the linear algebra library.
-/
namespace Sg.Props
open Sg Sg.QuadIntersect Sg.QuadFlows Sg.LinearSolve Sg.Triangulate Sg.FindPoint Sg.Spec

/-! ### Histories and what a user sees -/

section history
variable {F : Type} [Zero F] [One F] [Add F] [Sub F] [Mul F] [Div F] [Neg F] [LT F] [DecidableLT F]
  [LE F] [DecidableLE F] [DecidableEq F] [NatCast F] [IntCast F] [FOps F]

/-- Calls that change the object. -/
inductive FlowOp (F : Type) where
  | setQuad (q : Quad F)
  | setLine (a b : Pt F)
  | compute

def FlowOp.exec (g : Gels F) (s : Flows F) : FlowOp F → Cxx (Flows F)
  | .setQuad q => .ok (s.setQuadPoints q)
  | .setLine a b => .ok (s.setLinePoints a b)
  | .compute => do
    let (s, _) ← s.computeProjections g
    return s

def runFlows (g : Gels F) : Flows F → List (FlowOp F) → Cxx (Flows F)
  | s, [] => .ok s
  | s, o :: os => do
    let s ← o.exec g s
    runFlows g s os

/-- States of an object that was created and used in any way. -/
def FlowsReached (g : Gels F) (s : Flows F) : Prop := ∃ os, runFlows g Flows.new os = .ok s

/-- States that follow `s` without another call of `setQuadPoints`. -/
def FlowsAfter (g : Gels F) (s s' : Flows F) : Prop :=
  ∃ os, (∀ o ∈ os, ∀ q, o ≠ FlowOp.setQuad q) ∧ runFlows g s os = .ok s'

/-- `setLinePoints`, `computeProjections`, and four calls of `getProjection`: the code and the projections. -/
def project (g : Gels F) (s : Flows F) (a b : Pt F) : Cxx (Int × (Fin 4 → F)) := do
  let (s, code) ← (s.setLinePoints a b).computeProjections g
  let p0 ← s.getProjection 0
  let p1 ← s.getProjection 1
  let p2 ← s.getProjection 2
  let p3 ← s.getProjection 3
  return (code, fun e => match e with | 0 => p0 | 1 => p1 | 2 => p2 | 3 => p3)

/-- `project` in terms of the two searches. -/
theorem project_eq (g : Gels F) (s : Flows F) (a b : Pt F) (ca xa fa cb xb fb)
    (h1 : findIndices g s.finder a = .ok (ca, xa, fa)) (h2 : findIndices g fa b = .ok (cb, xb, fb)) :
    project g s a b = .ok (if cb ≠ 1 then 2 else if ca ≠ 1 then 1 else 0, projOf xa xb) ∧
    (s.setLinePoints a b).computeProjections g = .ok
      ({ line := some (a, b), projections := some (projOf xa xb), finder := fb, xia := xa, xib := xb },
        if cb ≠ 1 then 2 else if ca ≠ 1 then 1 else 0) := by
  have hc : (s.setLinePoints a b).computeProjections g = .ok
      ({ line := some (a, b), projections := some (projOf xa xb), finder := fb, xia := xa, xib := xb },
        if cb ≠ 1 then 2 else if ca ≠ 1 then 1 else 0) := by
    unfold Flows.computeProjections Flows.computeStartEndLineIndices Flows.setLinePoints
    simp only [bind, Except.bind, pure, Except.pure, h1, h2]
  refine ⟨?_, hc⟩
  unfold project
  rw [hc]
  simp only [bind, Except.bind, pure, Except.pure, Flows.getProjection]
  congr 2

/-- What holds of the finder of every reached object. -/
structure FlowFinder (f : Finder F 2) : Prop where
  per : f.indexPeriodicity = fun _ => 0
  nitermax : f.nitermax = 10
  tolpos : f.tolpos = flowTol

theorem searchLoop_frame (g : Gels F) : ∀ (k : Nat) (s s' : Finder F 2) (c : Int), searchLoop g k s = .ok (c, s') →
    SameGrid s s'
  | 0, s, s', c, h => by
    simp only [searchLoop, Except.ok.injEq, Prod.mk.injEq] at h
    rw [← h.2]; exact sameGrid_refl s
  | k + 1, s, s', c, h => by
    unfold searchLoop at h
    obtain ⟨⟨c1, s1⟩, h1, h⟩ := bind_ok_inv h
    obtain ⟨f1, f2, f3, f4, f5, f6, f7⟩ := next_frame g s c1 s1 h1
    have hs : SameGrid s s1 := ⟨f1, f2, f7, f3, f5, f6⟩
    dsimp only at h
    split_ifs at h
    · exact sameGrid_trans hs (searchLoop_frame g k s1 s' c h)
    · simp only [pure, Except.pure, Except.ok.injEq, Prod.mk.injEq] at h
      rw [← h.2]; exact hs

theorem findIndices_frame (g : Gels F) (f f' : Finder F 2) (p c x) (h : findIndices g f p = .ok (c, x, f')) : SameGrid f f' := by
  unfold findIndices at h
  obtain ⟨r, h1, h⟩ := bind_ok_inv h
  simp only [pure, Except.pure, Except.ok.injEq, Prod.mk.injEq] at h
  have := searchLoop_frame g _ _ r.2 r.1 h1
  rw [← h.2.2]
  exact ⟨this.coords, this.bounds, this.per, this.dims, this.nitermax, this.tolpos⟩

theorem compute_frame (g : Gels F) (s s' : Flows F) (c) (h : s.computeProjections g = .ok (s', c)) :
    SameGrid s.finder s'.finder := by
  unfold Flows.computeProjections at h
  obtain ⟨⟨s1, r⟩, h1, h⟩ := bind_ok_inv h
  simp only [pure, Except.pure, Except.ok.injEq, Prod.mk.injEq] at h
  rw [← h.1]
  unfold Flows.computeStartEndLineIndices at h1
  split at h1
  · simp only [Except.ok.injEq, Prod.mk.injEq] at h1
    rw [← h1.1]; exact sameGrid_refl _
  · obtain ⟨⟨ca, xa, fa⟩, ha, h1⟩ := bind_ok_inv h1
    obtain ⟨⟨cb, xb, fb⟩, hb, h1⟩ := bind_ok_inv h1
    simp only [pure, Except.pure, Except.ok.injEq, Prod.mk.injEq] at h1
    rw [← h1.1]
    exact sameGrid_trans (findIndices_frame g _ _ _ _ _ ha) (findIndices_frame g _ _ _ _ _ hb)

theorem flowsReached_finder (g : Gels F) {s : Flows F} (h : FlowsReached g s) : FlowFinder s.finder := by
  obtain ⟨os, h⟩ := h
  have key : ∀ (os : List (FlowOp F)) (s0 s : Flows F), FlowFinder s0.finder → runFlows g s0 os = .ok s →
      FlowFinder s.finder := by
    intro os
    induction os with
    | nil => intro s0 s hp e; cases e; exact hp
    | cons o os ih =>
      intro s0 s hp e
      unfold runFlows at e
      obtain ⟨s1, h1, e⟩ := bind_ok_inv e
      refine ih s1 s ?_ e
      cases o with
      | setQuad q =>
        cases h1
        refine ⟨?_, hp.nitermax, hp.tolpos⟩
        funext i
        show (if (0 : Int) ≠ 0 then ((2 : Nat) : F) else s0.finder.indexPeriodicity i) = 0
        rw [if_neg (by omega), hp.per]
      | setLine a b => cases h1; exact hp
      | compute =>
        obtain ⟨⟨s2, c⟩, h2, h1⟩ := bind_ok_inv h1
        cases h1
        have := compute_frame g _ _ _ h2
        exact ⟨this.per.trans hp.per, this.nitermax.trans hp.nitermax, this.tolpos.trans hp.tolpos⟩
  exact key os _ _ ⟨rfl, rfl, rfl⟩ h

end history

section exact
set_option linter.unusedSectionVars false
variable {K : Type} [Field K] [LinearOrder K] [IsStrictOrderedRing K] [FloorRing K] [FOps K] [FOpsLaws K]

theorem hasQuad_set {q : Quad K} {s : Flows K} (h : FlowFinder s.finder) : HasQuad q (s.setQuadPoints q).finder := by
  refine ⟨ready_setGrid _ _ _ _, rfl, fun k => rfl, ?_, h.nitermax, h.tolpos, boundsOK_setGrid _ _ _ _⟩
  funext i
  show (if (0 : Int) ≠ 0 then ((2 : Nat) : K) else s.finder.indexPeriodicity i) = 0
  rw [if_neg (by omega), h.per]

/-- A computation with the quadrilateral set. -/
theorem compute_ok (g : Gels K) (hg : FindPoint.KeepsSizes g) {q : Quad K} {s : Flows K} (h : HasQuad q s.finder) (a b : Pt K) :
    ∃ ca xa fa cb xb fb, findIndices g s.finder a = .ok (ca, xa, fa) ∧ findIndices g fa b = .ok (cb, xb, fb) ∧
      HasQuad q fa ∧ SameGrid s.finder fa ∧ HasQuad q fb ∧ SameGrid s.finder fb ∧
      InGrid (fun _ => 2) xa ∧ InGrid (fun _ => 2) xb ∧
      (ca = 1 → FOps.sqrt ((bilin (fun i => (q i).1) xa - a.1) ^ 2 + (bilin (fun i => (q i).2) xa - a.2) ^ 2) < flowTol) ∧
      (cb = 1 → FOps.sqrt ((bilin (fun i => (q i).1) xb - b.1) ^ 2 + (bilin (fun i => (q i).2) xb - b.2) ^ 2) < flowTol) := by
  obtain ⟨ca, xa, fa, e1, q1, s1, i1, t1⟩ := findIndices_ok g hg h a
  obtain ⟨cb, xb, fb, e2, q2, s2, i2, t2⟩ := findIndices_ok g hg q1 b
  exact ⟨ca, xa, fa, cb, xb, fb, e1, e2, q1, s1, q2, sameGrid_trans s1 s2, i1, i2, t1, t2⟩

theorem after_inv (g : Gels K) (hg : FindPoint.KeepsSizes g) {q : Quad K} : ∀ (os : List (FlowOp K)) (s s' : Flows K),
    HasQuad q s.finder → (∀ o ∈ os, ∀ q, o ≠ FlowOp.setQuad q) → runFlows g s os = .ok s' →
    HasQuad q s'.finder ∧ SameGrid s.finder s'.finder
  | [], s, s', h, _, e => by cases e; exact ⟨h, sameGrid_refl _⟩
  | o :: os, s, s', h, ho, e => by
    unfold runFlows at e
    obtain ⟨s1, h1, e⟩ := bind_ok_inv e
    have step : HasQuad q s1.finder ∧ SameGrid s.finder s1.finder := by
      cases o with
      | setQuad q' => exact absurd rfl (ho _ (List.mem_cons_self ..) q')
      | setLine a b => cases h1; exact ⟨h, sameGrid_refl _⟩
      | compute =>
        obtain ⟨⟨s2, c⟩, h2, h1⟩ := bind_ok_inv h1
        cases h1
        cases hl : s.line with
        | none =>
          unfold Flows.computeProjections Flows.computeStartEndLineIndices at h2
          rw [hl] at h2
          cases h2
          exact ⟨h, sameGrid_refl _⟩
        | some ab =>
          obtain ⟨ca, xa, fa, cb, xb, fb, e1, e2, -, -, qb, sb, -⟩ := compute_ok g hg h ab.1 ab.2
          have hs : s.setLinePoints ab.1 ab.2 = s := by
            obtain ⟨l, p, f, x, y⟩ := s
            dsimp only at hl
            subst hl; rfl
          have := (project_eq g s ab.1 ab.2 _ _ _ _ _ _ e1 e2).2
          rw [hs, h2] at this
          cases this
          exact ⟨qb, sb⟩
    obtain ⟨r, t⟩ := after_inv g hg os s1 s' step.1 (fun x hx => ho x (List.mem_cons_of_mem _ hx)) e
    exact ⟨r, sameGrid_trans step.2 t⟩

theorem flowsAfter_quad (g : Gels K) (hg : FindPoint.KeepsSizes g) {q : Quad K} {s0 s : Flows K} (h0 : FlowsReached g s0)
    (h : FlowsAfter g (s0.setQuadPoints q) s) :
    HasQuad q s.finder ∧ SameGrid (s0.setQuadPoints q).finder s.finder := by
  obtain ⟨os, ho, e⟩ := h
  exact after_inv g hg os _ _ (hasQuad_set (flowsReached_finder g h0)) ho e

theorem inGrid_inCell {x : Fin 2 → K} (h : InGrid (fun _ => 2) x) : InCell x := by
  intro k
  obtain ⟨h0, h1⟩ := h k
  refine ⟨h0, ?_⟩
  push_cast at h1
  linarith

theorem inCell_inGrid {x : Fin 2 → K} (h : InCell x) : InGrid (fun _ => 2) x := by
  intro k
  obtain ⟨h0, h1⟩ := h k
  refine ⟨h0, ?_⟩
  push_cast
  linarith

/-! ### C68 -/

/-- **C68** For every quadrilateral and segment, after any calls on the object: no call is undefined, and there are index
positions `xa`, `xb` in the cell such that, for all nodal values, the projections dotted with their differences along the
edges give exactly the difference of the bilinear interpolants at `xb` and `xa`.  The code is 0, 1 or 2.  Unless it is 1
or 2 (2), the position of `xa` (of `xb`) is closer to the start (end) of the segment than the tolerance `1e-10`. -/
theorem C68_potential (g : Gels K) (hg : FindPoint.KeepsSizes g) (q : Quad K) (s0 s : Flows K) (h0 : FlowsReached g s0)
    (h : FlowsAfter g (s0.setQuadPoints q) s) (a b : Pt K) :
    ∃ code p xa xb, project g s a b = .ok (code, p) ∧ (code = 0 ∨ code = 1 ∨ code = 2) ∧ InCell xa ∧ InCell xb ∧
      (∀ v, flowDot p (edgeDiff v) = bilin v xb - bilin v xa) ∧
      (code = 0 → FOps.sqrt ((bilin (fun i => (q i).1) xa - a.1) ^ 2 + (bilin (fun i => (q i).2) xa - a.2) ^ 2) < 1 / 10 ^ 10) ∧
      (code ≠ 2 → FOps.sqrt ((bilin (fun i => (q i).1) xb - b.1) ^ 2 + (bilin (fun i => (q i).2) xb - b.2) ^ 2) < 1 / 10 ^ 10) := by
  obtain ⟨hq, _⟩ := flowsAfter_quad g hg h0 h
  obtain ⟨ca, xa, fa, cb, xb, fb, e1, e2, -, -, -, -, i1, i2, t1, t2⟩ := compute_ok g hg hq a b
  have ht : (flowTol : K) = 1 / 10 ^ 10 := by unfold flowTol; norm_num
  rw [ht] at t1 t2
  refine ⟨_, _, xa, xb, (project_eq g s a b _ _ _ _ _ _ e1 e2).1, ?_, inGrid_inCell i1, inGrid_inCell i2,
    proj_potential xa xb, ?_, ?_⟩
  · split_ifs <;> simp
  · intro hc
    refine t1 ?_
    split_ifs at hc with h1 h2 <;> omega
  · intro hc
    refine t2 ?_
    by_contra hb
    rw [if_pos hb] at hc
    exact hc rfl

/-- **C68** without a segment: the code is -1 and the projections are those of the indices found last (of the same point
twice, for a new object). -/
theorem C68_no_line (g : Gels K) (s : Flows K) (h : s.line = none) :
    ∃ s', s.computeProjections g = .ok (s', -1) ∧ s'.line = none ∧
      ∀ e : Fin 4, s'.getProjection e = .ok (projOf s.xia s.xib e) := by
  refine ⟨{ s with projections := some (projOf s.xia s.xib) }, ?_, h, ?_⟩
  · unfold Flows.computeProjections Flows.computeStartEndLineIndices
    rw [h]
    dsimp only [bind, Except.bind, pure, Except.pure]
    rw [h]
  · intro e
    have := e.2
    unfold Flows.getProjection
    dsimp only
    rw [dif_pos (by omega)]
    rfl

/-- **C68** The projection of an edge that does not exist, or that was not computed, is not defined. -/
theorem C68_getProjection (s : Flows K) (e : Int) :
    (∃ p, s.getProjection e = .ok p) ↔ s.projections ≠ none ∧ 0 ≤ e ∧ e < 4 := by
  unfold Flows.getProjection
  cases hp : s.projections with
  | none => simp
  | some p =>
    by_cases he : 0 ≤ e ∧ e < 4
    · simp [he]
    · simp only [he, dif_neg, not_false_iff, and_false, iff_false]
      rintro ⟨x, hx⟩
      cases hx

/-- **C68** No edge of a new object has a projection, whatever quadrilateral and segment it is given, until
`computeProjections` is called. -/
theorem C68_not_computed (qs : List (Quad K ⊕ (Pt K × Pt K))) (e : Int) :
    ∃ u, ((qs.foldl (fun s x => match x with
      | .inl q => s.setQuadPoints q
      | .inr ab => s.setLinePoints ab.1 ab.2) (Flows.new : Flows K))).getProjection e = .error u := by
  have key : ∀ (qs : List (Quad K ⊕ (Pt K × Pt K))) (s : Flows K), s.projections = none →
      (qs.foldl (fun s x => match x with
        | .inl q => s.setQuadPoints q
        | .inr ab => s.setLinePoints ab.1 ab.2) s).projections = none := by
    intro qs
    induction qs with
    | nil => intro s h; exact h
    | cons x qs ih =>
      intro s h
      rw [List.foldl_cons]
      refine ih _ ?_
      cases x with
      | inl q => exact h
      | inr ab => exact h
  unfold Flows.getProjection
  rw [key qs _ rfl]
  exact ⟨_, rfl⟩

/-- A parallelogram that is not flat. -/
structure Parallelogram (q : Quad K) : Prop where
  fst : (q 0).1 + (q 2).1 = (q 1).1 + (q 3).1
  snd : (q 0).2 + (q 2).2 = (q 1).2 + (q 3).2
  area : ((q 1).1 - (q 0).1) * ((q 3).2 - (q 0).2) - ((q 3).1 - (q 0).1) * ((q 1).2 - (q 0).2) ≠ 0

/-- The point at an index position. -/
def at_ (q : Quad K) (x : Fin 2 → K) : Pt K := (bilin (fun i => (q i).1) x, bilin (fun i => (q i).2) x)

theorem project_parallelogram (g : Gels K) (hg : GelsContract g) (q : Quad K) (hq : Parallelogram q) (s0 s : Flows K)
    (h0 : FlowsReached g s0) (h : FlowsAfter g (s0.setQuadPoints q) s) (xa xb : Fin 2 → K) (ha : InCell xa) (hb : InCell xb) :
    project g s (at_ q xa) (at_ q xb) = .ok (0, projOf xa xb) := by
  have hks : FindPoint.KeepsSizes g := hg.sizes
  have hf := flowsReached_finder g h0
  obtain ⟨h1, hs⟩ := flowsAfter_quad g hks h0 h
  obtain ⟨fa, e1⟩ := findIndices_affine g hg s0.finder hf.per hf.nitermax hf.tolpos hq.fst hq.snd hq.area xa (inCell_inGrid ha)
    s.finder h1.ready hs
  obtain ⟨ca', xa', fa', e1', q1, s1, -⟩ := findIndices_ok g hks h1 (at_ q xa)
  have e1'' : findIndices g s.finder (at_ q xa) = .ok (1, xa, fa) := e1
  rw [e1''] at e1'
  simp only [Except.ok.injEq, Prod.mk.injEq] at e1'
  obtain ⟨rfl, rfl, rfl⟩ := e1'
  obtain ⟨fb, e2⟩ := findIndices_affine g hg s0.finder hf.per hf.nitermax hf.tolpos hq.fst hq.snd hq.area xb (inCell_inGrid hb)
    fa q1.ready (sameGrid_trans hs s1)
  have e2' : findIndices g fa (at_ q xb) = .ok (1, xb, fb) := e2
  rw [(project_eq g s _ _ _ _ _ _ _ _ e1'' e2').1]
  rfl

/-- **C68** For a parallelogram and a segment inside it, the ends being at index positions `xa` and `xb`: the code is 0 and
the flow of every potential is exactly the difference of the interpolants at the ends. -/
theorem C68_parallelogram (g : Gels K) (hg : GelsContract g) (q : Quad K) (hq : Parallelogram q) (s0 s : Flows K)
    (h0 : FlowsReached g s0) (h : FlowsAfter g (s0.setQuadPoints q) s) (xa xb : Fin 2 → K) (ha : InCell xa) (hb : InCell xb) :
    ∃ p, project g s (at_ q xa) (at_ q xb) = .ok (0, p) ∧
      ∀ v, flowDot p (edgeDiff v) = bilin v xb - bilin v xa :=
  ⟨_, project_parallelogram g hg q hq s0 s h0 h xa xb ha hb, proj_potential xa xb⟩

/-! ### C69 -/

/-- **C69** For every quadrilateral and segment: the projections of the reversed segment are the opposite, whatever was
computed before or in between with this quadrilateral. -/
theorem C69_reverse (g : Gels K) (hg : FindPoint.KeepsSizes g) (q : Quad K) (s0 s1 s2 : Flows K) (h0 : FlowsReached g s0)
    (h1 : FlowsAfter g (s0.setQuadPoints q) s1) (h2 : FlowsAfter g (s0.setQuadPoints q) s2) (a b : Pt K) :
    ∃ c1 c2 p, project g s1 a b = .ok (c1, p) ∧ project g s2 b a = .ok (c2, fun e => - p e) := by
  obtain ⟨q1, g1⟩ := flowsAfter_quad g hg h0 h1
  obtain ⟨q2, g2⟩ := flowsAfter_quad g hg h0 h2
  obtain ⟨ca, xa, fa, cb, xb, fb, e1, e2, qa, sa, -⟩ := compute_ok g hg q1 a b
  obtain ⟨cb', xb', fb', ca', xa', fa', e1', e2', qb', sb', -⟩ := compute_ok g hg q2 b a
  refine ⟨_, if ca' ≠ 1 then 2 else if cb' ≠ 1 then 1 else 0, _, (project_eq g s1 a b _ _ _ _ _ _ e1 e2).1, ?_⟩
  rw [(project_eq g s2 b a _ _ _ _ _ _ e1' e2').1]
  have sym : ∀ {u v w : Finder K 2}, SameGrid u v → SameGrid u w → SameGrid v w := fun h h' =>
    ⟨h'.coords.trans h.coords.symm, h'.bounds.trans h.bounds.symm, h'.per.trans h.per.symm, h'.dims.trans h.dims.symm,
      h'.nitermax.trans h.nitermax.symm, h'.tolpos.trans h.tolpos.symm⟩
  have ra := (findIndices_same g hg q1.ready qb'.ready (sym g1 (sameGrid_trans g2 sb')) a _ _ _ _ _ _ e1 e2').2
  have rb := (findIndices_same g hg qa.ready q2.ready (sym (sameGrid_trans g1 sa) g2) b _ _ _ _ _ _ e2 e1').2
  subst ra rb
  congr 2
  funext e
  exact proj_reverse xa xb e

/-- **C69** For every quadrilateral, segment and intermediate point, and edge data that are differences of nodal values: the
flow along the segment is the sum of the flows along the pieces. -/
theorem C69_additive_potential (g : Gels K) (hg : FindPoint.KeepsSizes g) (q : Quad K) (s0 s1 s2 s3 : Flows K)
    (h0 : FlowsReached g s0) (h1 : FlowsAfter g (s0.setQuadPoints q) s1) (h2 : FlowsAfter g (s0.setQuadPoints q) s2)
    (h3 : FlowsAfter g (s0.setQuadPoints q) s3) (a m b : Pt K) :
    ∃ c1 c2 c3 p1 p2 p3, project g s1 a b = .ok (c1, p1) ∧ project g s2 a m = .ok (c2, p2) ∧
      project g s3 m b = .ok (c3, p3) ∧
      ∀ v, flowDot p1 (edgeDiff v) = flowDot p2 (edgeDiff v) + flowDot p3 (edgeDiff v) := by
  obtain ⟨q1, g1⟩ := flowsAfter_quad g hg h0 h1
  obtain ⟨q2, g2⟩ := flowsAfter_quad g hg h0 h2
  obtain ⟨q3, g3⟩ := flowsAfter_quad g hg h0 h3
  obtain ⟨ca, xa, fa, cb, xb, fb, e1, e2, qa, sa, -⟩ := compute_ok g hg q1 a b
  obtain ⟨ca', xa', fa', cm, xm, fm, e1', e2', qa', sa', -⟩ := compute_ok g hg q2 a m
  obtain ⟨cm', xm', fm', cb', xb', fb', e1'', e2'', qm', sm', -⟩ := compute_ok g hg q3 m b
  have sym : ∀ {u v w : Finder K 2}, SameGrid u v → SameGrid u w → SameGrid v w := fun h h' =>
    ⟨h'.coords.trans h.coords.symm, h'.bounds.trans h.bounds.symm, h'.per.trans h.per.symm, h'.dims.trans h.dims.symm,
      h'.nitermax.trans h.nitermax.symm, h'.tolpos.trans h.tolpos.symm⟩
  have ra := (findIndices_same g hg q1.ready q2.ready (sym g1 g2) a _ _ _ _ _ _ e1 e1').2
  have rb := (findIndices_same g hg qa.ready qm'.ready (sym (sameGrid_trans g1 sa) (sameGrid_trans g3 sm')) b _ _ _ _ _ _ e2 e2'').2
  have rm := (findIndices_same g hg qa'.ready q3.ready (sym (sameGrid_trans g2 sa') g3) m _ _ _ _ _ _ e2' e1'').2
  subst ra rb rm
  refine ⟨_, _, _, _, _, _, (project_eq g s1 a b _ _ _ _ _ _ e1 e2).1, (project_eq g s2 a m _ _ _ _ _ _ e1' e2').1,
    (project_eq g s3 m b _ _ _ _ _ _ e1'' e2'').1, fun v => ?_⟩
  rw [proj_potential, proj_potential, proj_potential]
  ring

/-- **C69, part.**  Missing: quadrilaterals that are no parallelograms, for which it is false (`C69_additive_refuted`).
For a parallelogram and a segment inside it, the projections are the sum of those of the pieces, for any split point. -/
theorem C69_additive_partial (g : Gels K) (hg : GelsContract g) (q : Quad K) (hq : Parallelogram q) (s0 s1 s2 s3 : Flows K)
    (h0 : FlowsReached g s0) (h1 : FlowsAfter g (s0.setQuadPoints q) s1) (h2 : FlowsAfter g (s0.setQuadPoints q) s2)
    (h3 : FlowsAfter g (s0.setQuadPoints q) s3) (xa xb : Fin 2 → K) (ha : InCell xa) (hb : InCell xb)
    (t : K) (ht0 : 0 ≤ t) (ht1 : t ≤ 1) :
    let a := at_ q xa
    let b := at_ q xb
    let m : Pt K := (a.1 + t * (b.1 - a.1), a.2 + t * (b.2 - a.2))
    ∃ p1 p2 p3, project g s1 a b = .ok (0, p1) ∧ project g s2 a m = .ok (0, p2) ∧ project g s3 m b = .ok (0, p3) ∧
      ∀ e, p1 e = p2 e + p3 e := by
  intro a b m
  have hm : InCell (fun k => xa k + t * (xb k - xa k)) := by
    intro k
    obtain ⟨a0, a1⟩ := ha k
    obtain ⟨b0, b1⟩ := hb k
    constructor <;> nlinarith
  have em : m = at_ q (fun k => xa k + t * (xb k - xa k)) := by
    have e1 := hq.fst
    have e2 := hq.snd
    refine Prod.ext ?_ ?_
    · show (at_ q xa).1 + t * ((at_ q xb).1 - (at_ q xa).1) = _
      simp only [at_, bilin]
      linear_combination (xa 0 * xa 1 * (1 - t) + t * xb 0 * xb 1 - (xa 0 + t * (xb 0 - xa 0)) * (xa 1 + t * (xb 1 - xa 1))) * e1
    · show (at_ q xa).2 + t * ((at_ q xb).2 - (at_ q xa).2) = _
      simp only [at_, bilin]
      linear_combination (xa 0 * xa 1 * (1 - t) + t * xb 0 * xb 1 - (xa 0 + t * (xb 0 - xa 0)) * (xa 1 + t * (xb 1 - xa 1))) * e2
  rw [em]
  exact ⟨_, _, _, project_parallelogram g hg q hq s0 s1 h0 h1 xa xb ha hb,
    project_parallelogram g hg q hq s0 s2 h0 h2 xa _ ha hm, project_parallelogram g hg q hq s0 s3 h0 h3 _ xb hm hb,
    proj_split xa xb _ t fun _ => rfl⟩

end exact

/-- **C68** in real numbers, with the distance written out: if the code is 0, the flow of every potential is the difference of
the interpolants at two points of the quadrilateral at a distance less than `1e-10` from the ends of the segment. -/
theorem C68_real (g : Gels ℝ) (hg : FindPoint.KeepsSizes g) (q : Quad ℝ) (s0 s : Flows ℝ) (h0 : FlowsReached g s0)
    (h : FlowsAfter g (s0.setQuadPoints q) s) (a b : Pt ℝ) (p : Fin 4 → ℝ) (hp : project g s a b = .ok (0, p)) :
    ∃ xa xb, InCell xa ∧ InCell xb ∧ (∀ v, flowDot p (edgeDiff v) = bilin v xb - bilin v xa) ∧
      ((at_ q xa).1 - a.1) ^ 2 + ((at_ q xa).2 - a.2) ^ 2 < (1 / 10 ^ 10) ^ 2 ∧
      ((at_ q xb).1 - b.1) ^ 2 + ((at_ q xb).2 - b.2) ^ 2 < (1 / 10 ^ 10) ^ 2 := by
  obtain ⟨code, p', xa, xb, h1, -, h3, h4, h5, h6, h7⟩ := C68_potential g hg q s0 s h0 h a b
  rw [hp] at h1
  simp only [Except.ok.injEq, Prod.mk.injEq] at h1
  obtain ⟨rfl, rfl⟩ := h1
  exact ⟨xa, xb, h3, h4, h5, (Real.sqrt_lt' (by norm_num)).1 (h6 rfl), (Real.sqrt_lt' (by norm_num)).1 (h7 (by norm_num))⟩

/-- A trapezium. -/
def trapezium : Quad ℚ := fun i => match i with | 0 => (0, 0) | 1 => (2, 0) | 2 => (1, 1) | 3 => (0, 1)

open Sg.Witness in
/-- **C69 is false** for the trapezium (0,0), (2,0), (1,1), (0,1) and the segment from (0,0) to (1,1) split at its middle:
all searches converge, the projection on the first edge is 1/2, those of the pieces are 1/4 and 1/6. -/
theorem C69_additive_refuted :
    let s := (Flows.new : Flows ℚ).setQuadPoints trapezium
    ∃ p1 p2 p3, project cramerGels s (0, 0) (1, 1) = .ok (0, p1) ∧ project cramerGels s (0, 0) (1 / 2, 1 / 2) = .ok (0, p2) ∧
      project cramerGels s (1 / 2, 1 / 2) (1, 1) = .ok (0, p3) ∧ p1 0 ≠ p2 0 + p3 0 := by
  have e : ∀ a b : Pt ℚ, ∀ p : Fin 4 → ℚ,
      (project cramerGels ((Flows.new : Flows ℚ).setQuadPoints trapezium) a b).map
        (fun r => (r.1, r.2 0, r.2 1, r.2 2, r.2 3)) = .ok (0, p 0, p 1, p 2, p 3) →
      project cramerGels ((Flows.new : Flows ℚ).setQuadPoints trapezium) a b = .ok (0, p) := by
    intro a b p h
    cases hp : project cramerGels ((Flows.new : Flows ℚ).setQuadPoints trapezium) a b with
    | error e => rw [hp] at h; cases h
    | ok r =>
      rw [hp] at h
      simp only [Except.map, Except.ok.injEq, Prod.mk.injEq] at h
      obtain ⟨h1, h2, h3, h4, h5⟩ := h
      congr 1
      refine Prod.ext h1 (funext fun i => ?_)
      match i with
      | 0 => exact h2
      | 1 => exact h3
      | 2 => exact h4
      | 3 => exact h5
  refine ⟨![1 / 2, 1 / 2, 1 / 2, 1 / 2], ![1 / 4, 1 / 12, 5 / 12, 1 / 12], ![1 / 6, 1 / 2, 1 / 6, 1 / 3], ?_⟩
  refine ⟨e _ _ _ (by decide +kernel), e _ _ _ (by decide +kernel), e _ _ _ (by decide +kernel), by norm_num⟩

/-! ### Examples -/

/-- A shearedQuad parallelogram, as needed by C68_parallelogram and C69_additive_partial. -/
def shearedQuad : Quad ℚ := fun i => match i with | 0 => (0, 0) | 1 => (2, 1) | 2 => (3, 4) | 3 => (1, 3)

example : Parallelogram shearedQuad := ⟨by decide +kernel, by decide +kernel, by decide +kernel⟩

/-- An object that was used with another quadrilateral and a segment before: the hypotheses on histories hold. -/
example : ∃ s0 s, FlowsReached Sg.Witness.cramerGels s0 ∧ FlowsAfter Sg.Witness.cramerGels (s0.setQuadPoints shearedQuad) s ∧
    s.projections ≠ none ∧ s0.projections ≠ none := by
  obtain ⟨hq, -⟩ := flowsAfter_quad (q := trapezium) Sg.Witness.cramerGels Sg.Witness.cramerGels_contract.sizes (s0 := Flows.new)
    ⟨[], rfl⟩ ⟨[], by simp, rfl⟩
  obtain ⟨ca, xa, fa, cb, xb, fb, e1, e2, -⟩ := compute_ok Sg.Witness.cramerGels Sg.Witness.cramerGels_contract.sizes hq (0, 0) (1, 1)
  have c1 := (project_eq _ _ _ _ _ _ _ _ _ _ e1 e2).2
  set s0 : Flows ℚ := { line := some ((0, 0), (1, 1)), projections := some (projOf xa xb), finder := fb, xia := xa, xib := xb }
  have r0 : FlowsReached Sg.Witness.cramerGels s0 := by
    refine ⟨[.setQuad trapezium, .setLine (0, 0) (1, 1), .compute], ?_⟩
    simp only [runFlows, FlowOp.exec, bind, Except.bind, pure, Except.pure]
    rw [c1]
  obtain ⟨hq', -⟩ := flowsAfter_quad (q := shearedQuad) Sg.Witness.cramerGels Sg.Witness.cramerGels_contract.sizes r0
    ⟨[], by simp, rfl⟩
  obtain ⟨ca', xa', fa', cb', xb', fb', e1', e2', -⟩ := compute_ok Sg.Witness.cramerGels Sg.Witness.cramerGels_contract.sizes hq' (0, 0) (1, 1)
  have c2 := (project_eq _ _ _ _ _ _ _ _ _ _ e1' e2').2
  refine ⟨s0, { line := some ((0, 0), (1, 1)), projections := some (projOf xa' xb'), finder := fb', xia := xa', xib := xb' },
    r0, ⟨[.setLine (0, 0) (1, 1), .compute], by simp, ?_⟩, ?_, by simp [s0]⟩
  · simp only [runFlows, FlowOp.exec, bind, Except.bind, pure, Except.pure]
    rw [c2]
  · simp

end Sg.Props
