import Verif.Model.QuadMemory
/-
What the three classes on quadrilaterals are for, as objects that are told values and answer: histories of calls during which the
caller rewrites or gives up its arrays at will.  `none` stands for undefined behaviour.
-/
namespace Sg.QuadMemory
open Sg.LinearSolve Sg.Triangulate Sg.QuadIntersect Sg.QuadLine Sg.QuadFlows Sg.FindPoint

section spec
variable {F : Type} [Zero F] [One F] [Add F] [Sub F] [Mul F] [Div F] [Neg F] [LT F] [DecidableLT F]
  [LE F] [DecidableLE F] [DecidableEq F] [NatCast F] [IntCast F] [FOps F]

/-- The quadrilateral in the eight numbers at a pointer, if they are all there. -/
def quadAt (m : Memory F) : Option Ptr → Option (Quad F)
  | none => none
  | some p =>
    match m p.block with
    | none => none
    | some l => if p.off + 8 ≤ l.length then some fun i => (l.getD (p.off + 2 * i.val) 0, l.getD (p.off + 2 * i.val + 1) 0) else none

/-- The segment in the four numbers at a pointer, if they are all there. -/
def segAt (m : Memory F) : Option Ptr → Option (Pt F × Pt F)
  | none => none
  | some p =>
    match m p.block with
    | none => none
    | some l =>
      if p.off + 4 ≤ l.length then
        some ((l.getD p.off 0, l.getD (p.off + 1) 0), (l.getD (p.off + 2) 0, l.getD (p.off + 3) 0))
      else none

/-- Points one after the other in a flat array. -/
def flat (l : List (Pt F)) : List F := l.flatMap fun p => [p.1, p.2]

/-- What the caller sees of a call. -/
inductive Answer (F : Type) where
  | done
  | overlap (b : Bool)
  /-- `*numPoints`, and the numbers at `*points` unless that is `NULL` -/
  | points (numPoints : Int) (points : Option (List F))
  | code (c : Int)
  | value (x : F)
  deriving DecidableEq

/-! ### Two quadrilaterals -/

/-- What happens to an intersector of two quadrilaterals: the memory of the caller becomes `m`, or a call. -/
inductive PairCall (F : Type) where
  | memory (m : Memory F)
  | set (p1 p2 : Option Ptr)
  | reset
  | boxes
  | collect

/-- The program. -/
def runPairOn (g : Gels F) (grow : Nat → Nat) : Memory F → QuadMemory.Isect F → List (PairCall F) → Cxx (List (Answer F))
  | _, _, [] => .ok []
  | _, s, .memory m :: cs => do
    let l ← runPairOn g grow m s cs
    return .done :: l
  | m, s, .set p1 p2 :: cs => do
    let l ← runPairOn g grow m (s.setQuadPoints p1 p2) cs
    return .done :: l
  | m, s, .reset :: cs => do
    let l ← runPairOn g grow m s.reset cs
    return .done :: l
  | m, s, .boxes :: cs => do
    let b ← s.checkIfBoxesOverlap m
    let l ← runPairOn g grow m s cs
    return .overlap b :: l
  | m, s, .collect :: cs => do
    let (s, r) ← s.collectIntersectPoints g grow m
    let l ← runPairOn g grow m s cs
    return .points r.numPoints (r.points.map fun _ => s.pts.data) :: l

/-- The points a new object finds for two given quadrilaterals. -/
def pairPoints (g : Gels F) (q1 q2 : Quad F) : List (Pt F) :=
  match ((QuadIntersect.Isect.new : QuadIntersect.Isect F).setQuadPoints q1 q2).collectIntersectPoints g with
  | .ok r => r.2
  | .error _ => []

/-- An object that keeps two addresses and a list of points, and looks at the memory when asked. -/
def pairAnswers (g : Gels F) : Memory F → Option Ptr → Option Ptr → List (Pt F) → List (PairCall F) → Option (List (Answer F))
  | _, _, _, _, [] => some []
  | _, p1, p2, pts, .memory m :: cs => (pairAnswers g m p1 p2 pts cs).map (.done :: ·)
  | m, _, _, pts, .set p1 p2 :: cs => (pairAnswers g m p1 p2 pts cs).map (.done :: ·)
  | m, p1, p2, _, .reset :: cs => (pairAnswers g m p1 p2 [] cs).map (.done :: ·)
  | m, p1, p2, pts, .boxes :: cs =>
    match quadAt m p1, quadAt m p2 with
    | some q1, some q2 => (pairAnswers g m p1 p2 pts cs).map (.overlap (boxesOverlap q1 q2) :: ·)
    | _, _ => none
  | m, p1, p2, pts, .collect :: cs =>
    match quadAt m p1, quadAt m p2 with
    | some q1, some q2 =>
      let pts := pts ++ pairPoints g q1 q2
      let n := SideIterator.toInt pts.length
      (pairAnswers g m p1 p2 pts cs).map (.points n (if n > 0 then some (flat pts) else none) :: ·)
    | _, _ => none

/-! ### A quadrilateral and a segment -/

inductive LineCall (F : Type) where
  | memory (m : Memory F)
  | setQuad (p : Option Ptr)
  | setLine (p : Option Ptr)
  | reset
  | overlap
  | collect

/-- The program. -/
def runLineOn (g : Gels F) (srt : List F → List F) (grow : Nat → Nat) :
    Memory F → QuadMemory.Line F → List (LineCall F) → Cxx (List (Answer F))
  | _, _, [] => .ok []
  | _, s, .memory m :: cs => do
    let l ← runLineOn g srt grow m s cs
    return .done :: l
  | m, s, .setQuad p :: cs => do
    let s ← s.setQuadPoints m p
    let l ← runLineOn g srt grow m s cs
    return .done :: l
  | m, s, .setLine p :: cs => do
    let s ← s.setLinePoints m p
    let l ← runLineOn g srt grow m s cs
    return .done :: l
  | m, s, .reset :: cs => do
    let l ← runLineOn g srt grow m s.reset cs
    return .done :: l
  | m, s, .overlap :: cs => do
    let b ← s.checkIfOverlap
    let l ← runLineOn g srt grow m s cs
    return .overlap b :: l
  | m, s, .collect :: cs => do
    let (s, r) ← s.collectIntersectPoints g srt grow m
    let l ← runLineOn g srt grow m s cs
    return .points r.numPoints (r.points.map fun _ => s.pts.data) :: l

/-- Whether the boxes of a quadrilateral and of a segment meet, for given values. -/
def boxesMeet (q : Quad F) (a b : Pt F) : Bool :=
  match (((QuadLine.Line.new : QuadLine.Line F).setQuadPoints q).setLinePoints a b).checkIfOverlap with
  | .ok r => r
  | .error _ => false

/-- The parameters a new object finds for given values, not sorted. -/
def lineParams (g : Gels F) (q : Quad F) (a b : Pt F) : List F :=
  match (((QuadLine.Line.new : QuadLine.Line F).setQuadPoints q).setLinePoints a b).collectIntersectPoints g id with
  | .ok r => r.1.lambdas
  | .error _ => []

/-- An object that keeps two addresses, the values that were there when it was told the addresses, and parameters. -/
structure LineIdeal (F : Type) where
  quadPtr : Option Ptr
  linePtr : Option Ptr
  quadThen : Option (Quad F)
  lineThen : Option (Pt F × Pt F)
  params : List F

/-- Its answers: the boxes are those of the values at the time of the setters, the points those of the values now. -/
def lineAnswers (g : Gels F) (srt : List F → List F) : Memory F → LineIdeal F → List (LineCall F) → Option (List (Answer F))
  | _, _, [] => some []
  | _, t, .memory m :: cs => (lineAnswers g srt m t cs).map (.done :: ·)
  | m, t, .setQuad p :: cs =>
    match quadAt m p with
    | some q => (lineAnswers g srt m { t with quadPtr := p, quadThen := some q } cs).map (.done :: ·)
    | none => none
  | m, t, .setLine p :: cs =>
    match segAt m p with
    | some ab => (lineAnswers g srt m { t with linePtr := p, lineThen := some ab } cs).map (.done :: ·)
    | none => none
  | m, t, .reset :: cs => (lineAnswers g srt m { t with params := [] } cs).map (.done :: ·)
  | m, t, .overlap :: cs =>
    match t.quadThen, t.lineThen with
    | some q, some (a, b) => (lineAnswers g srt m t cs).map (.overlap (boxesMeet q a b) :: ·)
    | _, _ => none
  | m, t, .collect :: cs =>
    match quadAt m t.quadPtr, segAt m t.linePtr with
    | some q, some (a, b) =>
      let params := srt (t.params ++ lineParams g q a b)
      let pts := params.map (linePoint a b)
      (lineAnswers g srt m { t with params := params } cs).map
        (.points (SideIterator.toInt pts.length) (if pts.length > 0 then some (flat pts) else none) :: ·)
    | _, _ => none

/-! ### Flows -/

inductive FlowsCall (F : Type) where
  | memory (m : Memory F)
  | setQuad (p : Option Ptr)
  | setLine (p : Option Ptr)
  | compute
  | get (edge : Int)

/-- The program. -/
def runFlowsOn (g : Gels F) : Memory F → QuadMemory.Flows F → List (FlowsCall F) → Cxx (List (Answer F))
  | _, _, [] => .ok []
  | _, s, .memory m :: cs => do
    let l ← runFlowsOn g m s cs
    return .done :: l
  | m, s, .setQuad p :: cs => do
    let s ← s.setQuadPoints m p
    let l ← runFlowsOn g m s cs
    return .done :: l
  | m, s, .setLine p :: cs => do
    let l ← runFlowsOn g m (s.setLinePoints p) cs
    return .done :: l
  | m, s, .compute :: cs => do
    let (s, c) ← s.computeProjections g m
    let l ← runFlowsOn g m s cs
    return .code c :: l
  | m, s, .get e :: cs => do
    let x ← s.getProjection e
    let l ← runFlowsOn g m s cs
    return .value x :: l

/-- An object that is told the values of the quadrilateral when the caller gives its address, and those of the segment when the
projections are computed; `t` is `Model/QuadLineFlows`, which has no pointers. -/
def flowsAnswers (g : Gels F) : Memory F → Option Ptr → QuadFlows.Flows F → List (FlowsCall F) → Option (List (Answer F))
  | _, _, _, [] => some []
  | _, pl, t, .memory m :: cs => (flowsAnswers g m pl t cs).map (.done :: ·)
  | m, pl, t, .setQuad p :: cs =>
    match quadAt m p with
    | some q => (flowsAnswers g m pl (t.setQuadPoints q) cs).map (.done :: ·)
    | none => none
  | m, _, t, .setLine p :: cs => (flowsAnswers g m p t cs).map (.done :: ·)
  | m, pl, t, .compute :: cs =>
    match pl, segAt m pl with
    | none, _ =>
      match ({ t with line := none } : QuadFlows.Flows F).computeProjections g with
      | .ok (t, c) => (flowsAnswers g m pl t cs).map (.code c :: ·)
      | .error _ => none
    | some _, some (a, b) =>
      match (t.setLinePoints a b).computeProjections g with
      | .ok (t, c) => (flowsAnswers g m pl t cs).map (.code c :: ·)
      | .error _ => none
    | some _, none => none
  | m, pl, t, .get e :: cs =>
    match t.getProjection e with
    | .ok x => (flowsAnswers g m pl t cs).map (.value x :: ·)
    | .error _ => none

end spec
end Sg.QuadMemory
