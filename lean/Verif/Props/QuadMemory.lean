import Verif.Proof.QuadMemory2
import Verif.Props.QuadFlows
import Verif.Props.NodeInterp
/-
Property C130: what the classes on quadrilaterals copy when they are given an array, and what they read later.
-/
namespace Sg.Props
open Sg Sg.QuadMemory Sg.LinearSolve Sg.Triangulate

section general
set_option linter.unusedSectionVars false
variable {F : Type} [Zero F] [One F] [Add F] [Sub F] [Mul F] [Div F] [Neg F] [LT F] [DecidableLT F]
  [LE F] [DecidableLE F] [DecidableEq F] [NatCast F] [IntCast F] [FindPoint.FOps F]

/-! ### helpers -/

theorem map_done {α : Type} (c : Cxx (List α)) (o : Option (List α)) (a : α) (h : ∀ l, c = .ok l ↔ o = some l) (l : List α) :
    (do let l ← c; return a :: l) = (.ok l : Cxx (List α)) ↔ o.map (a :: ·) = some l := by
  cases c with
  | error e =>
    cases o with
    | none => simp [bind, Except.bind]
    | some x => exact absurd ((h x).mpr rfl) (by simp)
  | ok x =>
    have := (h x).mp rfl
    subst this
    simp [bind, Except.bind, pure, Except.pure]

theorem pair_on (g : Gels F) (hg : QuadIntersect.KeepsSizes g) (grow : Nat → Nat) (cs : List (PairCall F)) :
    ∀ (m : Memory F) (s : QuadMemory.Isect F) (pts : List (Pt F)), QuadIntersect.Ready s.slvr → s.pts.data = flat pts →
      ∀ l, runPairOn g grow m s cs = .ok l ↔ pairAnswers g m s.quad1 s.quad2 pts cs = some l := by
  induction cs with
  | nil => intro m s pts _ _ l; simp [runPairOn, pairAnswers]
  | cons c cs ih =>
    intro m s pts hs hp l
    cases c with
    | memory m' => exact map_done _ _ _ (ih m' s pts hs hp) l
    | set p1 p2 => exact map_done _ _ _ (ih m (s.setQuadPoints p1 p2) pts hs hp) l
    | reset => exact map_done _ _ _ (ih m s.reset [] hs rfl) l
    | boxes =>
      cases h1 : quadAt m s.quad1 with
      | none =>
        simp only [pairAnswers, h1]
        refine ⟨fun h => ?_, fun h => by simp at h⟩
        obtain ⟨b, hb, _⟩ := FindPoint.bind_ok_inv h
        obtain ⟨⟨a, ha⟩, _⟩ := boxes_inv hb
        rw [h1] at ha; simp at ha
      | some a =>
        cases h2 : quadAt m s.quad2 with
        | none =>
          simp only [pairAnswers, h1, h2]
          refine ⟨fun h => ?_, fun h => by simp at h⟩
          obtain ⟨b, hb, _⟩ := FindPoint.bind_ok_inv h
          obtain ⟨_, a, ha⟩ := boxes_inv hb
          rw [h2] at ha; simp at ha
        | some b =>
          simp only [pairAnswers, h1, h2, runPairOn, boxes_mem s h1 h2]
          exact map_done _ _ _ (ih m s pts hs hp) l
    | collect =>
      cases h1 : quadAt m s.quad1 with
      | none =>
        simp only [pairAnswers, h1]
        refine ⟨fun h => ?_, fun h => by simp at h⟩
        obtain ⟨b, hb, _⟩ := FindPoint.bind_ok_inv h
        obtain ⟨⟨a, ha⟩, _⟩ := collect_inv g grow hb
        rw [h1] at ha; simp at ha
      | some a =>
        cases h2 : quadAt m s.quad2 with
        | none =>
          simp only [pairAnswers, h1, h2]
          refine ⟨fun h => ?_, fun h => by simp at h⟩
          obtain ⟨b, hb, _⟩ := FindPoint.bind_ok_inv h
          obtain ⟨_, a, ha⟩ := collect_inv g grow hb
          rw [h2] at ha; simp at ha
        | some b =>
          obtain ⟨sl, e, r⟩ := collect_mem g hg grow s h1 h2 hs
          have hd : (s.put grow sl (QuadIntersect.collected g a b)).pts.data = flat (pts ++ pairPoints g a b) := by
            show (s.pts.pushAll grow _).data = _
            rw [pushAll_data, hp, flat_append, pairPoints_eq g hg]
          have hn : (flat (pts ++ pairPoints g a b)).length / 2 = (pts ++ pairPoints g a b).length := by
            rw [flat_length]; omega
          have := map_done _ _ (.points (SideIterator.toInt (pts ++ pairPoints g a b).length)
            (if SideIterator.toInt (pts ++ pairPoints g a b).length > 0 then some (flat (pts ++ pairPoints g a b)) else none))
            (ih m (s.put grow sl (QuadIntersect.collected g a b)) (pts ++ pairPoints g a b) r hd) l
          simp only [pairAnswers, h1, h2, runPairOn, e]
          refine Iff.trans ?_ this
          simp only [bind, Except.bind, Vec.found, hd, hn]
          have hif : ∀ (c : Prop) [Decidable c] (x : Nat) (y : List F), Option.map (fun _ => y) (if c then some x else none) =
              if c then some y else none := by intro c _ x y; split <;> rfl
          rw [hif]

/-- The two objects hold the same. -/
structure SameLine (s : QuadMemory.Line F) (t : LineIdeal F) : Prop where
  ready : QuadIntersect.Ready s.slvr
  quad : s.quad = t.quadPtr
  line : s.line = t.linePtr
  quadBox : s.quadBox = t.quadThen.map QuadLine.quadBox
  lineBox : s.lineBox = t.lineThen.map fun ab => QuadLine.lineBox ab.1 ab.2
  params : s.lambdas = t.params

theorem line_on (g : Gels F) (hg : QuadIntersect.KeepsSizes g) (srt : List F → List F) (grow : Nat → Nat)
    (cs : List (LineCall F)) :
    ∀ (m : Memory F) (s : QuadMemory.Line F) (t : LineIdeal F), SameLine s t →
      ∀ l, runLineOn g srt grow m s cs = .ok l ↔ lineAnswers g srt m t cs = some l := by
  induction cs with
  | nil => intro m s t _ l; simp [runLineOn, lineAnswers]
  | cons c cs ih =>
    intro m s t h l
    cases c with
    | memory m' => exact map_done _ _ _ (ih m' s t h) l
    | reset => exact map_done _ _ _ (ih m s.reset { t with params := [] } ⟨h.ready, h.quad, h.line, h.quadBox, h.lineBox, rfl⟩) l
    | setQuad p =>
      cases h1 : quadAt m p with
      | none =>
        simp only [lineAnswers, h1]
        refine ⟨fun h => ?_, fun h => by simp at h⟩
        obtain ⟨b, hb, _⟩ := FindPoint.bind_ok_inv h
        obtain ⟨a, ha⟩ := setQuad_inv hb
        rw [h1] at ha; simp at ha
      | some q =>
        simp only [lineAnswers, h1, runLineOn, setQuad_mem h1]
        exact map_done _ _ _ (ih m { s with quad := p, quadBox := some (QuadLine.quadBox q) }
          { t with quadPtr := p, quadThen := some q } ⟨h.ready, rfl, h.line, rfl, h.lineBox, h.params⟩) l
    | setLine p =>
      cases h1 : segAt m p with
      | none =>
        simp only [lineAnswers, h1]
        refine ⟨fun h => ?_, fun h => by simp at h⟩
        obtain ⟨b, hb, _⟩ := FindPoint.bind_ok_inv h
        obtain ⟨a, ha⟩ := setLine_inv hb
        rw [h1] at ha; simp at ha
      | some ab =>
        obtain ⟨a, b⟩ := ab
        simp only [lineAnswers, h1, runLineOn, setLine_mem h1]
        exact map_done _ _ _ (ih m { s with line := p, lineBox := some (QuadLine.lineBox a b) }
          { t with linePtr := p, lineThen := some (a, b) } ⟨h.ready, h.quad, rfl, h.quadBox, rfl, h.params⟩) l
    | overlap =>
      cases h1 : t.quadThen with
      | none =>
        have : s.quadBox = none := by rw [h.quadBox, h1]; rfl
        simp [lineAnswers, h1, runLineOn, QuadMemory.Line.checkIfOverlap, this, bind, Except.bind]
      | some q =>
        have e1 : s.quadBox = some (QuadLine.quadBox q) := by rw [h.quadBox, h1]; rfl
        cases h2 : t.lineThen with
        | none =>
          have : s.lineBox = none := by rw [h.lineBox, h2]; rfl
          simp [lineAnswers, h1, h2, runLineOn, QuadMemory.Line.checkIfOverlap, this, e1, bind, Except.bind]
        | some ab =>
          obtain ⟨a, b⟩ := ab
          have e2 : s.lineBox = some (QuadLine.lineBox a b) := by rw [h.lineBox, h2]; rfl
          have e3 : s.checkIfOverlap = .ok (boxesMeet q a b) := by
            simp only [QuadMemory.Line.checkIfOverlap, e1, e2, boxesMeet, QuadLine.Line.checkIfOverlap,
              QuadLine.Line.setLinePoints, QuadLine.Line.setQuadPoints]
          simp only [lineAnswers, h1, h2, runLineOn, e3]
          exact map_done _ _ _ (ih m s t h) l
    | collect =>
      cases h1 : quadAt m t.quadPtr with
      | none =>
        simp only [lineAnswers, h1]
        refine ⟨fun h' => ?_, fun h => by simp at h⟩
        obtain ⟨b, hb, _⟩ := FindPoint.bind_ok_inv h'
        obtain ⟨⟨a, ha⟩, _⟩ := collectL_inv g srt grow hb
        rw [h.quad, h1] at ha; simp at ha
      | some q =>
        cases h2 : segAt m t.linePtr with
        | none =>
          simp only [lineAnswers, h1, h2]
          refine ⟨fun h' => ?_, fun h => by simp at h⟩
          obtain ⟨b, hb, _⟩ := FindPoint.bind_ok_inv h'
          obtain ⟨_, a, b, ha⟩ := collectL_inv g srt grow hb
          rw [h.line, h2] at ha; simp at ha
        | some ab =>
          obtain ⟨a, b⟩ := ab
          obtain ⟨sl, r, e⟩ := collectL_mem g hg srt grow s (by rw [h.line, h2]) (by rw [h.quad, h1]) h.ready
          rw [h.params, ← lineParams_eq g hg] at e
          simp only [lineAnswers, h1, h2, runLineOn, e]
          have hif : ∀ (c : Prop) [Decidable c] (x : Nat) (y : List F), Option.map (fun _ => y) (if c then some x else none) =
              if c then some y else none := by intro c _ x y; split <;> rfl
          simp only [List.length_map]
          refine Iff.trans ?_ (map_done _ _ _ (ih m { s with
            slvr := sl
            lambdas := srt (t.params ++ lineParams g q a b)
            pts := { s.pts.resize grow (2 * (srt (t.params ++ lineParams g q a b)).length) with
              data := flat ((srt (t.params ++ lineParams g q a b)).map (QuadLine.linePoint a b)) } }
            { t with params := srt (t.params ++ lineParams g q a b) } ⟨r, h.quad, h.line, h.quadBox, h.lineBox, rfl⟩) l)
          simp only [bind, Except.bind, hif]

/-- The two objects hold the same. -/
structure SameFlows (s : QuadMemory.Flows F) (t : QuadFlows.Flows F) : Prop where
  finder : s.finder = t.finder
  projections : s.projections = t.projections
  xia : s.xia = t.xia
  xib : s.xib = t.xib

theorem flows_on (g : Gels F) (cs : List (FlowsCall F)) :
    ∀ (m : Memory F) (s : QuadMemory.Flows F) (t : QuadFlows.Flows F), SameFlows s t →
      ∀ l, runFlowsOn g m s cs = .ok l ↔ flowsAnswers g m s.line t cs = some l := by
  induction cs with
  | nil => intro m s t _ l; simp [runFlowsOn, flowsAnswers]
  | cons c cs ih =>
    intro m s t h l
    cases c with
    | memory m' => exact map_done _ _ _ (ih m' s t h) l
    | setQuad p =>
      cases h1 : quadAt m p with
      | none =>
        simp only [flowsAnswers, h1]
        refine ⟨fun h => ?_, fun h => by simp at h⟩
        obtain ⟨b, hb, _⟩ := FindPoint.bind_ok_inv h
        obtain ⟨a, ha⟩ := setGrid_inv hb
        rw [h1] at ha; simp at ha
      | some q =>
        simp only [flowsAnswers, h1, runFlowsOn, setGrid_mem h1]
        refine map_done _ _ _ (ih m { s with
          quad := p
          finder := s.finder.setGrid (fun _ => 2) (fun _ => 0) fun k j => QuadFlows.comp (q (QuadFlows.gridNode j)) k }
          (t.setQuadPoints q) ⟨?_, h.projections, h.xia, h.xib⟩) l
        show s.finder.setGrid _ _ _ = t.finder.setGrid _ _ _
        rw [h.finder]
    | setLine p => exact map_done _ _ _ (ih m (s.setLinePoints p) t ⟨h.finder, h.projections, h.xia, h.xib⟩) l
    | compute =>
      by_cases hn : s.line = none
      · have e := compute_null g m s hn
        have hv : s.value none = { t with line := none } := by
          simp only [QuadMemory.Flows.value, h.finder, h.projections, h.xia, h.xib]
        rw [hv] at e
        simp only [flowsAnswers, runFlowsOn, e, hn]
        cases hc : QuadFlows.Flows.computeProjections g { t with line := none } with
        | error u => simp [Except.map, bind, Except.bind]
        | ok r =>
          obtain ⟨t', c⟩ := r
          have := ih m (s.withValue t') t' ⟨rfl, rfl, rfl, rfl⟩
          have hl : (s.withValue t').line = none := hn
          rw [hl] at this
          exact map_done _ _ _ this l
      · obtain ⟨p, hp⟩ : ∃ p, s.line = some p := Option.ne_none_iff_exists'.mp hn
        cases h1 : segAt m s.line with
        | none =>
          have h1' := h1
          rw [hp] at h1'
          simp only [flowsAnswers, hp, h1']
          refine ⟨fun h => ?_, fun h => by simp at h⟩
          obtain ⟨b, hb, _⟩ := FindPoint.bind_ok_inv h
          obtain ⟨a, b, ha⟩ := compute_inv g hb hn
          rw [h1] at ha; simp at ha
        | some ab =>
          obtain ⟨a, b⟩ := ab
          have e := compute_mem g s h1
          have hv : s.value (some (a, b)) = t.setLinePoints a b := by
            simp only [QuadMemory.Flows.value, h.finder, h.projections, h.xia, h.xib, QuadFlows.Flows.setLinePoints]
          rw [hv] at e
          rw [hp] at h1
          simp only [flowsAnswers, runFlowsOn, e, hp, h1]
          cases hc : (t.setLinePoints a b).computeProjections g with
          | error u => simp [Except.map, bind, Except.bind]
          | ok r =>
            obtain ⟨t', c⟩ := r
            have := ih m (s.withValue t') t' ⟨rfl, rfl, rfl, rfl⟩
            have hl : (s.withValue t').line = some p := hp
            rw [hl] at this
            exact map_done _ _ _ this l
    | get e =>
      have e1 : s.getProjection e = t.getProjection e := by
        unfold QuadMemory.Flows.getProjection QuadFlows.Flows.getProjection
        rw [h.projections]
        cases t.projections <;> rfl
      simp only [flowsAnswers, runFlowsOn, e1]
      cases hc : t.getProjection e with
      | error u => simp [bind, Except.bind]
      | ok x => exact map_done _ _ _ (ih m s t h) l

theorem push_room (grow : Nat → Nat) (hgrow : ∀ n, n < grow n) (v : Vec F) (hv : v.data.length ≤ v.cap) (a : F) :
    (v.push grow a).data.length ≤ (v.push grow a).cap ∧ v.id ≤ (v.push grow a).id ∧
      ((v.push grow a).id = v.id ↔ v.data.length < v.cap) ∧ (v.data.length < v.cap → (v.push grow a).cap = v.cap) := by
  have := hgrow v.data.length
  unfold Vec.push
  split
  · rename_i h; simp; omega
  · rename_i h; simp; omega

theorem pushAll_room (grow : Nat → Nat) (hgrow : ∀ n, n < grow n) (l : List F) : ∀ v : Vec F, v.data.length ≤ v.cap →
    (v.pushAll grow l).data.length ≤ (v.pushAll grow l).cap ∧ v.id ≤ (v.pushAll grow l).id ∧
      ((v.pushAll grow l).id = v.id ↔ v.data.length + l.length ≤ v.cap) := by
  induction l with
  | nil => intro v hv; simpa [Vec.pushAll] using hv
  | cons a l ih =>
    intro v hv
    obtain ⟨h1, h2, h3, h4⟩ := push_room grow hgrow v hv a
    obtain ⟨i1, i2, i3⟩ := ih _ h1
    have e : v.pushAll grow (a :: l) = (v.push grow a).pushAll grow l := rfl
    rw [e]
    refine ⟨i1, h2.trans i2, ?_⟩
    by_cases hc : v.data.length < v.cap
    · have hid := h3.mpr hc
      rw [hid, h4 hc, push_data] at i3
      rw [i3]
      simp
      omega
    · have : (v.push grow a).id ≠ v.id := fun h => hc (h3.mp h)
      simp
      omega

/-! ### C130 -/

/-- **C130, two quadrilaterals.**  Whatever the caller does with its arrays between the calls, an intersector answers as the
object of the specification that keeps two addresses and reads the eight numbers at each when it is asked; it has undefined
behaviour exactly when some of these numbers are not there at that time. -/
theorem C130_pair (g : Gels F) (hg : QuadIntersect.KeepsSizes g) (grow : Nat → Nat) (m : Memory F) (cs : List (PairCall F))
    (l : List (Answer F)) : runPairOn g grow m QuadMemory.Isect.new cs = .ok l ↔ pairAnswers g m none none [] cs = some l :=
  pair_on g hg grow cs m _ [] QuadIntersect.ready_new rfl l

/-- **C130, a quadrilateral and a segment.**  Setters read the arrays for the boxes and keep the addresses; the boxes compared
later are those of the values at the time of the setters, while points are found for the values at the time of the call. -/
theorem C130_line (g : Gels F) (hg : QuadIntersect.KeepsSizes g) (srt : List F → List F) (grow : Nat → Nat) (m : Memory F)
    (cs : List (LineCall F)) (l : List (Answer F)) :
    runLineOn g srt grow m QuadMemory.Line.new cs = .ok l ↔ lineAnswers g srt m ⟨none, none, none, none, []⟩ cs = some l :=
  line_on g hg srt grow cs m _ _ ⟨QuadIntersect.ready_new, rfl, rfl, rfl, rfl, rfl⟩ l

/-- **C130, flows.**  The quadrilateral is copied by its setter, the segment is read when the projections are computed. -/
theorem C130_flows (g : Gels F) (m : Memory F) (cs : List (FlowsCall F)) (l : List (Answer F)) :
    runFlowsOn g m QuadMemory.Flows.new cs = .ok l ↔ flowsAnswers g m none QuadFlows.Flows.new cs = some l :=
  flows_on g cs m _ _ ⟨rfl, rfl, rfl, rfl⟩ l

/-- **C130, the array of points.**  The address handed out by an earlier call is still that of the points after another call
exactly when all the numbers fit in the capacity the vector had; the other calls do not move it. -/
theorem C130_points_moved (g : Gels F) (hg : QuadIntersect.KeepsSizes g) (grow : Nat → Nat) (hgrow : ∀ n, n < grow n)
    (m : Memory F) (s s' : QuadMemory.Isect F) (r : Found) (hs : QuadIntersect.Ready s.slvr) (hv : s.pts.data.length ≤ s.pts.cap)
    (h : s.collectIntersectPoints g grow m = .ok (s', r)) :
    (s'.pts.id = s.pts.id ↔ s'.pts.data.length ≤ s.pts.cap) ∧ s'.pts.data.length ≤ s'.pts.cap ∧
      QuadIntersect.Ready s'.slvr ∧ (∀ k, r.points = some k → k = s'.pts.id) ∧
      s'.reset.pts.id = s'.pts.id ∧ s'.reset.pts.cap = s'.pts.cap ∧ ∀ p1 p2, (s'.setQuadPoints p1 p2).pts = s'.pts := by
  obtain ⟨⟨a, ha⟩, b, hb⟩ := collect_inv g grow h
  obtain ⟨sl, e, hr⟩ := collect_mem g hg grow s ha hb hs
  rw [e] at h
  cases h
  obtain ⟨h1, h2, h3⟩ := pushAll_room grow hgrow (flat (QuadIntersect.collected g a b)) s.pts hv
  refine ⟨?_, h1, hr, ?_, rfl, rfl, fun _ _ => rfl⟩
  · show (s.pts.pushAll grow _).id = _ ↔ (s.pts.pushAll grow _).data.length ≤ _
    rw [h3, pushAll_data, List.length_append]
  · intro k hk
    simp only [Vec.found] at hk
    split at hk
    · exact (Option.some.inj hk).symm
    · simp at hk

/-- **C130, the array of points on a segment.**  The same for the other intersector, whose vector is resized in one go. -/
theorem C130_line_points_moved (g : Gels F) (hg : QuadIntersect.KeepsSizes g) (srt : List F → List F) (grow : Nat → Nat)
    (m : Memory F) (s s' : QuadMemory.Line F) (r : Found) (hs : QuadIntersect.Ready s.slvr)
    (h : s.collectIntersectPoints g srt grow m = .ok (s', r)) :
    (s'.pts.id = s.pts.id ↔ s'.pts.data.length ≤ s.pts.cap) ∧ QuadIntersect.Ready s'.slvr ∧
      (∀ k, r.points = some k → k = s'.pts.id) ∧ s'.reset.pts = s'.pts ∧
      ∀ m' p t, (s'.setQuadPoints m' p = .ok t ∨ s'.setLinePoints m' p = .ok t) → t.pts = s'.pts := by
  obtain ⟨⟨q, hq⟩, a, b, hab⟩ := collectL_inv g srt grow h
  obtain ⟨sl, hr, e⟩ := collectL_mem g hg srt grow s hab hq hs
  rw [e] at h
  cases h
  refine ⟨?_, hr, ?_, rfl, ?_⟩
  · dsimp only
    rw [flat_length, List.length_map]
    unfold Vec.resize
    split
    · rename_i hc; simpa using hc
    · rename_i hc; simpa using hc
  · intro k hk
    dsimp only at hk ⊢
    split at hk
    · exact (Option.some.inj hk).symm
    · simp at hk
  · rintro m' p t (ht | ht)
    · obtain ⟨q', hq'⟩ := setQuad_inv ht
      rw [setQuad_mem hq'] at ht
      cases ht; rfl
    · obtain ⟨⟨a', b'⟩, hab'⟩ := setLine_inv ht
      rw [setLine_mem hab'] at ht
      cases ht; rfl

/-- The answer with points `x`. -/
def pointsAnswer (x : List (Pt F)) : Answer F :=
  .points (SideIterator.toInt x.length) (if SideIterator.toInt x.length > 0 then some (flat x) else none)

theorem pair_many (g : Gels F) (m : Memory F) (p1 p2 : Option Ptr) (q1 q2 : QuadIntersect.Quad F) (h1 : quadAt m p1 = some q1)
    (h2 : quadAt m p2 = some q2) : ∀ (k : Nat) (pts : List (Pt F)), ∃ l, pairAnswers g m p1 p2 pts (List.replicate (k + 1) .collect) =
      some l ∧ l.length = k + 1 ∧ ∃ x : List (Pt F), x.length = pts.length + (k + 1) * (pairPoints g q1 q2).length ∧
        l.getLast? = some (pointsAnswer x) := by
  intro k
  induction k with
  | zero =>
    intro pts
    refine ⟨[pointsAnswer (pts ++ pairPoints g q1 q2)], ?_, rfl, pts ++ pairPoints g q1 q2, by simp, rfl⟩
    simp only [List.replicate, pairAnswers, h1, h2, Option.map_some, pointsAnswer]
  | succ k ih =>
    intro pts
    obtain ⟨l, e, hl, x, hx, hlast⟩ := ih (pts ++ pairPoints g q1 q2)
    refine ⟨pointsAnswer (pts ++ pairPoints g q1 q2) :: l, ?_, by simp [hl], x, by rw [hx, List.length_append]; ring, ?_⟩
    · rw [List.replicate_succ]
      simp only [pairAnswers, h1, h2, e, Option.map_some, pointsAnswer]
    · rw [← hlast]
      cases l with
      | nil => simp at hl
      | cons a l => simp [List.getLast?_cons]

/-- **C130, the count.**  Points are collected until `reset`.  When there are `2^31` of them the count given back is negative and
the address `NULL`. -/
theorem C130_count (g : Gels F) (hg : QuadIntersect.KeepsSizes g) (grow : Nat → Nat) (m : Memory F) (p1 p2 : Option Ptr)
    (q1 q2 : QuadIntersect.Quad F) (h1 : quadAt m p1 = some q1) (h2 : quadAt m p2 = some q2) (k : Nat)
    (hk : (k + 1) * (pairPoints g q1 q2).length = 2147483648) :
    ∃ l, runPairOn g grow m QuadMemory.Isect.new (.set p1 p2 :: List.replicate (k + 1) .collect) = .ok l ∧
      l.getLast? = some (.points (-2147483648) none) := by
  obtain ⟨l, e, hl, x, hx, hlast⟩ := pair_many g m p1 p2 q1 q2 h1 h2 k []
  refine ⟨.done :: l, ?_, ?_⟩
  · rw [C130_pair g hg]
    simp only [pairAnswers, e, Option.map_some]
  · have : x.length = 2147483648 := by rw [hx, hk, List.length_nil, Nat.zero_add]
    unfold pointsAnswer at hlast
    rw [this] at hlast
    cases l with
    | nil => simp at hl
    | cons a l =>
      rw [List.getLast?_cons_cons, hlast]
      norm_num [SideIterator.toInt]

end general

/-! ### examples -/

section examples
open Sg.Witness

/-- The array `[x, y, …]` of a square with one corner at `(x, y)` and side `a`. -/
def squareArray (x y a : ℚ) : List ℚ := [x, y, x + a, y, x + a, y + a, x, y + a]

/-- Array 0 is the unit square, array 1 another square, array 2 a segment; nothing else is there. -/
def arrays (sq : List ℚ) (seg : List ℚ) : Memory ℚ := fun k => [squareArray 0 0 1, sq, seg][k]?

theorem gels2_sizes : QuadIntersect.KeepsSizes gels2 := by
  intro r
  simp only [gels2]
  split <;> simp_all

/-- The second square is moved onto the first between the setter and the call: the answer is for where it is now.  The boxes did
not meet before. -/
example : runPairOn gels2 (fun n => 2 * n + 1) (arrays (squareArray 5 5 1) []) QuadMemory.Isect.new
    [.set (some ⟨0, 0⟩) (some ⟨1, 0⟩), .boxes, .memory (arrays (squareArray (1/2) (1/2) 1) []), .boxes, .collect] =
    .ok [.done, .overlap false, .done, .overlap true, .points 4 (some [1, 1, 1/2, 1/2, 1, 1/2, 1/2, 1])] := by
  decide +kernel

/-- The second array is given up before the call: undefined behaviour, although the setter was fine. -/
example : runPairOn gels2 (fun n => 2 * n + 1) (arrays (squareArray 5 5 1) []) QuadMemory.Isect.new
    [.set (some ⟨0, 0⟩) (some ⟨1, 0⟩), .memory (fun k => if k = 0 then some (squareArray 0 0 1) else none), .collect] =
    .error .badPointer := by decide +kernel

/-- `2^28` calls for two equal squares without `reset` meet the hypotheses of `C130_count`: eight points each. -/
example : quadAt (arrays (squareArray 0 0 1) []) (some ⟨1, 0⟩) ≠ none ∧
    (pairPoints gels2 (fun i => ![(0, 0), (1, 0), (1, 1), (0, 1)] i) (fun i => ![(0, 0), (1, 0), (1, 1), (0, 1)] i)).length = 8 ∧
    (268435455 + 1) * 8 = 2147483648 := by
  refine ⟨?_, ?_, by norm_num⟩ <;> decide +kernel

/-- The vector moves when it has to grow, so that the address handed out before is lost: sixteen numbers with room for
thirty-one, then thirty-two. -/
example : (do
    let (s, r) ← (QuadMemory.Isect.new.setQuadPoints (some ⟨0, 0⟩) (some ⟨1, 0⟩)).collectIntersectPoints gels2
      (fun n => 2 * n + 1) (arrays (squareArray 0 0 1) [])
    let (s', r') ← s.collectIntersectPoints gels2 (fun n => 2 * n + 1) (arrays (squareArray 0 0 1) [])
    return ([s.pts.data.length, s.pts.cap, s.pts.id, s'.pts.data.length, s'.pts.id], [r.points, r'.points])) =
    (.ok ([16, 31, 5, 32, 6], [some 5, some 6]) : Cxx (List Nat × List (Option Nat))) := by decide +kernel

/-- The segment is moved onto the quadrilateral after its setter: two points are found although the boxes, taken before, do not
meet. -/
example : runLineOn gels2 (List.insertionSort (· ≤ ·)) (fun n => 2 * n + 1) (arrays [] [5, 5, 6, 6]) QuadMemory.Line.new
    [.setQuad (some ⟨0, 0⟩), .setLine (some ⟨2, 0⟩), .overlap, .memory (arrays [] [1/4, -1, 1/2, 1/2]), .overlap, .collect] =
    .ok [.done, .done, .overlap false, .done, .overlap false, .points 2 (some [5/12, 0, 1/2, 1/2])] := by decide +kernel

/-- The quadrilateral is given up after its setter and the segment changed: the projections are those of the quadrilateral as it
was and of the segment as it is. -/
example : runFlowsOn gels2 (arrays [] [5, 5, 6, 6]) QuadMemory.Flows.new
    [.setQuad (some ⟨0, 0⟩), .setLine (some ⟨2, 0⟩), .memory (fun k => if k = 2 then some [0, 1/2, 1, 1/2] else none), .compute,
      .get 0, .get 1, .get 2] = .ok [.done, .done, .done, .code 0, .value (1/2), .value (1/2), .value 0] := by decide +kernel

end examples

end Sg.Props
