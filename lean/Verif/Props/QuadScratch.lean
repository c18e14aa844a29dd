import Verif.Proof.QuadScratch
import Verif.Props.QuadMemory
/-
Property C139: the classes on quadrilaterals do not use what their constructors leave uninitialised.
-/
namespace Sg.Props
open Sg Sg.QuadMemory Sg.QuadScratch Sg.LinearSolve Sg.Triangulate

section general
set_option linter.unusedSectionVars false
variable {F : Type} [Zero F] [One F] [Add F] [Sub F] [Mul F] [Div F] [Neg F] [LT F] [DecidableLT F]
  [LE F] [DecidableLE F] [DecidableEq F] [NatCast F] [IntCast F] [FindPoint.FOps F]

theorem bind_iff {α β : Type} {c d : Cxx α} {f : α → Cxx β} {r : β} (h : ∀ a, c = .ok a ↔ d = .ok a) :
    (c >>= f) = .ok r ↔ (d >>= f) = .ok r := by
  cases c with
  | error e =>
    cases d with
    | error e' => exact ⟨fun h => (by cases h), fun h => (by cases h)⟩
    | ok a => cases (h a).2 rfl
  | ok a => rw [(h a).1 rfl]

theorem bind_iff_same {α β : Type} {c : Cxx α} {f f' : α → Cxx β} {r : β} (h : ∀ a, f a = .ok r ↔ f' a = .ok r) :
    (c >>= f) = .ok r ↔ (c >>= f') = .ok r := by
  cases c with
  | error e => exact Iff.rfl
  | ok a => exact h a

theorem pair_scratch (g : Gels F) (grow : Nat → Nat) (cs : List (PairCall F)) :
    ∀ (m : Memory F) (s : QuadMemory.Isect F) (sc : Scratch F), sc.Sized → ∀ l, runPair g grow m s sc cs = .ok l ↔ runPairOn g grow m s cs = .ok l := by
  induction cs with
  | nil => intro m s sc _ l; exact Iff.rfl
  | cons c cs ih =>
    intro m s sc hsc l
    cases c with
    | memory m' => exact bind_iff (ih m' s sc hsc)
    | set p1 p2 => exact bind_iff (ih m _ sc hsc)
    | reset => exact bind_iff (ih m _ sc hsc)
    | boxes => exact bind_iff_same fun b => bind_iff (ih m s sc hsc)
    | collect =>
      obtain ⟨h1, h2⟩ := collect_agrees g grow m s sc hsc
      simp only [runPair, runPairOn]
      cases hd : s.collectIntersectPoints g grow m with
      | error e =>
        cases hc : collectIntersectPoints g grow m s sc with
        | error e' => exact ⟨fun h => (by cases h), fun h => (by cases h)⟩
        | ok r =>
          have := (h1 r.1 r.2 hc).2
          rw [hd] at this
          cases this
      | ok r =>
        obtain ⟨sc', hc⟩ := h2 r hd
        rw [hc]
        exact bind_iff (ih m r.1 sc' (h1 r sc' hc).1)

theorem line_scratch (g : Gels F) (srt : List F → List F) (grow : Nat → Nat) (cs : List (LineCall F)) :
    ∀ (m : Memory F) (s : QuadMemory.Line F) (sc : Scratch F), sc.Sized →
      ∀ l, runLine g srt grow m s sc cs = .ok l ↔ runLineOn g srt grow m s cs = .ok l := by
  induction cs with
  | nil => intro m s sc _ l; exact Iff.rfl
  | cons c cs ih =>
    intro m s sc hsc l
    cases c with
    | memory m' => exact bind_iff (ih m' s sc hsc)
    | setQuad p => exact bind_iff_same fun s => bind_iff (ih m s sc hsc)
    | setLine p => exact bind_iff_same fun s => bind_iff (ih m s sc hsc)
    | reset => exact bind_iff (ih m _ sc hsc)
    | overlap => exact bind_iff_same fun b => bind_iff (ih m s sc hsc)
    | collect =>
      obtain ⟨h1, h2⟩ := collectL_agrees g srt grow m s sc hsc
      simp only [runLine, runLineOn]
      cases hd : s.collectIntersectPoints g srt grow m with
      | error e =>
        cases hc : collectIntersectPointsL g srt grow m s sc with
        | error e' => exact ⟨fun h => (by cases h), fun h => (by cases h)⟩
        | ok r =>
          have := (h1 r.1 r.2 hc).2
          rw [hd] at this
          cases this
      | ok r =>
        obtain ⟨sc', hc⟩ := h2 r hd
        rw [hc]
        exact bind_iff (ih m r.1 sc' (h1 r sc' hc).1)

/-- **C139, two quadrilaterals.**  For every history of calls on a new object, whatever is in the memory of its arrays `mat` and `rhs` at first,
uninitialised or not: the calls return exactly when the eight numbers of both quadrilaterals are there when they are looked at, and then
with the answers of the object of the specification. -/
theorem C139_pair (g : Gels F) (hg : QuadIntersect.KeepsSizes g) (grow : Nat → Nat) (m : Memory F) (mat rhs : List (Option F))
    (hm : mat.length = 4) (hr : rhs.length = 2) (cs : List (PairCall F)) (l : List (Answer F)) :
    runPair g grow m QuadMemory.Isect.new ⟨mat, rhs⟩ cs = .ok l ↔ pairAnswers g m none none [] cs = some l :=
  (pair_scratch g grow cs m _ _ ⟨hm, hr⟩ l).trans (C130_pair g hg grow m cs l)

/-- **C139, a quadrilateral and a segment.**  The same for the other intersector. -/
theorem C139_line (g : Gels F) (hg : QuadIntersect.KeepsSizes g) (srt : List F → List F) (grow : Nat → Nat) (m : Memory F)
    (mat rhs : List (Option F)) (hm : mat.length = 4) (hr : rhs.length = 2) (cs : List (LineCall F)) (l : List (Answer F)) :
    runLine g srt grow m QuadMemory.Line.new ⟨mat, rhs⟩ cs = .ok l ↔ lineAnswers g srt m ⟨none, none, none, none, []⟩ cs = some l :=
  (line_scratch g srt grow cs m _ _ ⟨hm, hr⟩ l).trans (C130_line g hg srt grow m cs l)

/-- Reading an entry nothing was written to is undefined in the model: a solver called before the arrays are filled is found out. -/
example (g : Gels F) (s : Solver F) (rhs : List (Option F)) : solveS g s ⟨[none, none, none, none], rhs⟩ = .error .uninit := rfl

end general

/-! ### The hypotheses are met -/

/-- C139: two squares, with arrays nothing was written to. -/
example : runPair gels2 (fun n => 2 * n + 1) (arrays (squareArray (1/2) (1/2) 1) []) QuadMemory.Isect.new
    ⟨[none, none, none, none], [none, none]⟩ [.set (some ⟨0, 0⟩) (some ⟨1, 0⟩), .boxes, .collect] =
    .ok [.done, .overlap true, .points 4 (some [1, 1, 1/2, 1/2, 1, 1/2, 1/2, 1])] := by
  decide +kernel

/-- C139: a square and a segment, with arrays that hold something else. -/
example : runLine gels2 (List.insertionSort (· ≤ ·)) (fun n => 2 * n + 1) (arrays [] [1/4, -1, 1/2, 1/2]) QuadMemory.Line.new
    ⟨[some 7, none, some 0, some 0], [none, some 3]⟩ [.setQuad (some ⟨0, 0⟩), .setLine (some ⟨2, 0⟩), .overlap, .collect] =
    .ok [.done, .done, .overlap true, .points 2 (some [5/12, 0, 1/2, 1/2])] := by decide +kernel

end Sg.Props
