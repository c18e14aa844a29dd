import Verif.Model.FindPointHistory
import Verif.Props.FindPoint
/-
Property C81: the history of errors of the Newton search.  `F` is any type with operations, no law assumed.
-/
namespace Sg.Props
open Sg Sg.FindPoint Sg.LinearSolve Sg.Spec

section generic
set_option linter.unusedSectionVars false
variable {F : Type} [Zero F] [One F] [Add F] [Sub F] [Mul F] [Div F] [Neg F] [LT F] [DecidableLT F]
  [LE F] [DecidableLE F] [DecidableEq F] [NatCast F] [IntCast F] [FOps F] {n : Nat}

/-- A sequence of calls on a finder, storage of the history included. -/
def runH (g : Gels F) : HFinder F n → List (Call F n) → Cxx (HFinder F n)
  | s, [] => .ok s
  | s, .setGrid dims per coords :: cs => runH g (s.setGrid dims per coords) cs
  | s, .reset d t :: cs => runH g (s.reset d t) cs
  | s, .next :: cs => do let r ← s.next g; runH g r.2 cs

/-- The same calls made by an observer who keeps a list of errors: the list is emptied at each `reset`; after each call
of `next` that did not find the target outside the domain, the observer asks for the current error and notes it. -/
def observe (g : Gels F) : HFinder F n → List F → List (Call F n) → Cxx (HFinder F n × List F)
  | s, l, [] => .ok (s, l)
  | s, l, .setGrid dims per coords :: cs => observe g (s.setGrid dims per coords) l cs
  | s, _, .reset d t :: cs => observe g (s.reset d t) [] cs
  | s, l, .next :: cs => do
    let r ← s.next g
    if r.1 = -3 then observe g r.2 l cs
    else do
      let e ← r.2.fd.getError
      observe g r.2 (l ++ [e]) cs

/-- One call of `next`, as far as the history is concerned. -/
theorem hnext_spec (g : Gels F) (s s' : HFinder F n) (c : Int) (h : s.next g = .ok (c, s')) :
    (c = -3 ∧ s'.fd = s.fd) ∨
    (c ≠ -3 ∧ ∃ e, s'.fd.getError = .ok e ∧ s'.fd.errorHistory = s.fd.errorHistory ++ [e] ∧ s'.fd.iter = s.fd.iter + 1 ∧
      s'.fd.nitermax = s.fd.nitermax ∧ (c = 0 → s'.fd.iter < s.fd.nitermax)) := by
  unfold HFinder.next at h
  obtain ⟨⟨c1, f1⟩, h1, h⟩ := bind_ok_inv h
  have hc : c1 = c ∧ f1 = s'.fd := by
    dsimp only at h
    split_ifs at h <;> · simp only [pure, Except.pure, Except.ok.injEq, Prod.mk.injEq] at h; rw [← h.2]; exact ⟨h.1, rfl⟩
  obtain ⟨rfl, rfl⟩ := hc
  rcases next_inv g s.fd c1 s'.fd h1 with ⟨rfl, hs, _⟩ | ⟨slvr, jac, rhs, sol, e, b, _, _, _, he, hf⟩
  · exact .inl ⟨rfl, hs⟩
  · obtain ⟨q1, q2, q3, q4, q5, q6, q7, q8, q9, _⟩ := finishStep_spec _ e c1 s'.fd hf
    refine .inr ⟨by omega, e, by rw [q3]; exact he, q2, q1, q5, fun h => (q9 h).2.1⟩

theorem observe_history (g : Gels F) : ∀ (cs : List (Call F n)) (s s' : HFinder F n) (l l' : List F),
    s.fd.errorHistory = l → observe g s l cs = .ok (s', l') → s'.fd.errorHistory = l'
  | [], s, s', l, l', h, e => by simp only [observe, Except.ok.injEq, Prod.mk.injEq] at e; rw [← e.1, ← e.2]; exact h
  | .setGrid dims per coords :: cs, s, s', l, l', h, e => by
    unfold observe at e; exact observe_history g cs (s.setGrid dims per coords) s' l l' h e
  | .reset d t :: cs, s, s', l, l', h, e => by
    unfold observe at e; exact observe_history g cs (s.reset d t) s' [] l' rfl e
  | .next :: cs, s, s', l, l', h, e => by
    unfold observe at e
    obtain ⟨⟨c, s1⟩, h1, e⟩ := bind_ok_inv e
    dsimp only at e
    rcases hnext_spec g s s1 c h1 with ⟨hc, hs⟩ | ⟨hc, er, he, hh, _⟩
    · rw [if_pos hc] at e
      exact observe_history g cs s1 s' l l' (by rw [hs]; exact h) e
    · rw [if_neg hc] at e
      obtain ⟨e1, he1, e⟩ := bind_ok_inv e
      rw [he, Except.ok.injEq] at he1
      exact observe_history g cs s1 s' (l ++ [e1]) l' (by rw [hh, h, he1]) e

/-- **C81** The history of errors: for every finder and every sequence of calls, `getErrorHistory` gives the number of
steps made since the last `reset` and, in order, the errors after each of them as `getError` reports them at that time.
A call of `next` that finds the target outside the domain is no step. -/
theorem C81_error_history (g : Gels F) (nitermax : Int) (tolpos : F) (s0 s : HFinder F n)
    (h0 : HFinder.new nitermax tolpos = some s0) (cs : List (Call F n)) (l : List F)
    (h : observe g s0 [] cs = .ok (s, l)) (hl : l ≠ []) :
    ∃ p, s.getErrorHistory = .ok ((l.length : Int), p) ∧ ∀ i, s.readHistory p i = vget l i := by
  have h0' : s0.fd.errorHistory = [] := by
    unfold HFinder.new at h0
    split_ifs at h0
    rw [Option.some.injEq] at h0
    rw [← h0]; rfl
  have hh := observe_history g cs s0 s [] l h0' h
  refine ⟨s.block, ?_, fun i => ?_⟩
  · unfold HFinder.getErrorHistory
    rw [hh, if_neg hl]
  · unfold HFinder.readHistory
    rw [if_pos rfl, hh]

/-- Asking for the error after a step never fails: whoever makes a sequence of calls could have been the observer. -/
theorem C81_observable (g : Gels F) : ∀ (cs : List (Call F n)) (s s' : HFinder F n) (l : List F),
    runH g s cs = .ok s' → ∃ l', observe g s l cs = .ok (s', l')
  | [], s, s', l, h => by simp only [runH, Except.ok.injEq] at h; exact ⟨l, by rw [← h]; rfl⟩
  | .setGrid dims per coords :: cs, s, s', l, h => by
    unfold runH at h; unfold observe; exact C81_observable g cs _ s' l h
  | .reset d t :: cs, s, s', l, h => by
    unfold runH at h; unfold observe; exact C81_observable g cs _ s' [] h
  | .next :: cs, s, s', l, h => by
    unfold runH at h
    obtain ⟨⟨c, s1⟩, h1, h⟩ := bind_ok_inv h
    unfold observe
    rcases hnext_spec g s s1 c h1 with ⟨hc, hs⟩ | ⟨hc, er, he, hh, _⟩
    · obtain ⟨l', hl⟩ := C81_observable g cs s1 s' l h
      refine ⟨l', ?_⟩
      rw [h1]
      simpa only [bind, Except.bind, if_pos hc] using hl
    · obtain ⟨l', hl⟩ := C81_observable g cs s1 s' (l ++ [er]) h
      refine ⟨l', ?_⟩
      rw [h1]
      simpa only [bind, Except.bind, if_neg hc, he] using hl

/-- Part of C81 that is false: before the first step of a search (after `new`, `reset`, or when the target was outside
the domain) asking for the history takes the first element of an empty vector. -/
theorem C81_no_step_refuted (g : Gels F) (nitermax : Int) (tolpos : F) (s0 s : HFinder F n)
    (h0 : HFinder.new nitermax tolpos = some s0) (cs : List (Call F n)) (h : observe g s0 [] cs = .ok (s, [])) :
    s.getErrorHistory = .error .badIterator := by
  have h0' : s0.fd.errorHistory = [] := by
    unfold HFinder.new at h0
    split_ifs at h0
    rw [Option.some.injEq] at h0
    rw [← h0]; rfl
  unfold HFinder.getErrorHistory
  rw [if_pos (observe_history g cs s0 s [] [] h0' h)]

/-- The states of a finder in the hands of a client that calls `next` only until it returns a non-zero code, and then
`reset`s before the next search.  The flag says whether `next` may be called. -/
inductive InUse (g : Gels F) (nitermax : Int) (tolpos : F) : HFinder F n → Bool → Prop
  | new {s : HFinder F n} : HFinder.new nitermax tolpos = some s → InUse g nitermax tolpos s true
  | setGrid {s : HFinder F n} {b : Bool} (dims per coords) : InUse g nitermax tolpos s b →
      InUse g nitermax tolpos (s.setGrid dims per coords) b
  | reset {s : HFinder F n} {b : Bool} (d t) : InUse g nitermax tolpos s b → InUse g nitermax tolpos (s.reset d t) true
  | next {s s' : HFinder F n} {c : Int} : InUse g nitermax tolpos s true → s.next g = .ok (c, s') →
      InUse g nitermax tolpos s' (decide (c = 0))

theorem inUse_inv (g : Gels F) (nitermax : Int) (tolpos : F) (hn : 1 ≤ nitermax) (s : HFinder F n) (b : Bool)
    (h : InUse g nitermax tolpos s b) :
    s.block = 0 ∧ s.cap = nitermax.toNat ∧ s.fd.nitermax = nitermax ∧ (s.fd.errorHistory.length : Int) = s.fd.iter ∧
    s.fd.iter ≤ nitermax ∧ (b = true → s.fd.iter < nitermax) := by
  induction h with
  | new h0 =>
    unfold HFinder.new at h0
    split_ifs at h0
    rw [Option.some.injEq] at h0
    rw [← h0]
    refine ⟨rfl, rfl, rfl, rfl, ?_, fun _ => ?_⟩ <;> simp only [Finder.new] <;> omega
  | setGrid dims per coords _ ih => exact ih
  | reset d t _ ih =>
    obtain ⟨h1, h2, h3, _⟩ := ih
    refine ⟨h1, h2, h3, rfl, ?_, fun _ => ?_⟩ <;> simp only [HFinder.reset, Finder.reset] <;> omega
  | @next s s' c _ hnx ih =>
    obtain ⟨h1, h2, h3, h4, h5, h6⟩ := ih
    have h6 := h6 rfl
    have hsp := hnext_spec g s s' c hnx
    have hlen : (s'.fd.errorHistory.length : Int) ≤ nitermax := by
      rcases hsp with ⟨_, hs⟩ | ⟨_, e, _, hh, _⟩
      · rw [hs]; omega
      · rw [hh, List.length_append]; simp only [List.length_cons, List.length_nil]; push_cast; omega
    have hst : s'.block = s.block ∧ s'.cap = s.cap := by
      unfold HFinder.next at hnx
      obtain ⟨⟨c1, f1⟩, _, hnx⟩ := bind_ok_inv hnx
      dsimp only at hnx
      split_ifs at hnx with hcap
      · simp only [pure, Except.pure, Except.ok.injEq, Prod.mk.injEq] at hnx
        rw [← hnx.2]; exact ⟨rfl, rfl⟩
      · simp only [pure, Except.pure, Except.ok.injEq, Prod.mk.injEq] at hnx
        rw [← hnx.2] at hlen
        dsimp only at hlen
        omega
    rcases hsp with ⟨hc, hs⟩ | ⟨hc, e, _, hh, hi, hnm, h0⟩
    · refine ⟨hst.1.trans h1, hst.2.trans h2, by rw [hs]; exact h3, by rw [hs]; exact h4, by rw [hs]; exact h5, ?_⟩
      intro hb; simp only [decide_eq_true_eq] at hb; omega
    · refine ⟨hst.1.trans h1, hst.2.trans h2, by rw [hnm]; exact h3, ?_, by omega, ?_⟩
      · rw [hh, List.length_append, hi]; simp only [List.length_cons, List.length_nil]; push_cast; omega
      · intro hb; simp only [decide_eq_true_eq] at hb; have := h0 hb; omega

/-- **C81** (the pointer) With at least one iteration allowed, and a client that stops when told: the pointer obtained
from `getErrorHistory` at any time stays good for the life of the object.  At any later or earlier time at which the
history is not empty it is the pointer one would obtain then, and reading the first entries through it is defined. -/
theorem C81_pointer (g : Gels F) (nitermax : Int) (tolpos : F) (hn : 1 ≤ nitermax) (s s' : HFinder F n) (b b' : Bool)
    (h : InUse g nitermax tolpos s b) (h' : InUse g nitermax tolpos s' b') (k : Int) (p : Nat)
    (hp : s.getErrorHistory = .ok (k, p)) :
    (∀ k' p', s'.getErrorHistory = .ok (k', p') → p' = p ∧ k' ≤ nitermax ∧
      ∀ i : Nat, (i : Int) < k' → ∃ e, s'.readHistory p i = .ok e) := by
  intro k' p' hp'
  obtain ⟨h1, _⟩ := inUse_inv g nitermax tolpos hn s b h
  obtain ⟨h1', _, _, h4', h5', _⟩ := inUse_inv g nitermax tolpos hn s' b' h'
  unfold HFinder.getErrorHistory at hp hp'
  split_ifs at hp hp'
  simp only [Except.ok.injEq, Prod.mk.injEq] at hp hp'
  refine ⟨by omega, by omega, fun i hi => ?_⟩
  unfold HFinder.readHistory
  rw [if_pos (by omega)]
  have hi' : i < s'.fd.errorHistory.length := by omega
  exact ⟨_, vget_ok hi'⟩

/-- A finder with a negative maximum number of iterations is never built (`reserve` throws). -/
theorem C81_negative (nitermax : Int) (tolpos : F) :
    (HFinder.new nitermax tolpos : Option (HFinder F n)) = none ↔ nitermax < 0 := by
  unfold HFinder.new
  split_ifs with h <;> simp [h]

end generic

/-- Part of C81 that is false for clients that go on after the code -1: two iterations allowed, three made; the pointer
obtained after the first one is to freed memory. -/
theorem C81_pointer_refuted :
    ((HFinder.new 2 0 : Option (HFinder ℚ 1)).map fun s0 => do
      let s1 ← runH gels1 s0 [.setGrid ![4] ![0] (line1 2), .reset ![0] ![5], .next]
      let p ← s1.getErrorHistory
      let s2 ← runH gels1 s1 [.next]
      let e2 ← s2.readHistory p.2 0
      let s3 ← runH gels1 s2 [.next]
      return (p.1, e2, match s3.readHistory p.2 0 with | .error .badPointer => true | _ => false)) =
    some (.ok (1, 0, true)) := by decide +kernel

/-- A search on a curved grid with nodes 0, 1, 4 for the target 2: two errors in the history (squared: the arithmetic of
the examples has no root), the second smaller. -/
example : ((HFinder.new 10 (1 / 100) : Option (HFinder ℚ 1)).map fun s0 => do
      let r ← observe gels1 s0 [] [.setGrid ![3] ![0] (fun _ j => j * j), .reset ![1] ![2], .next, .next]
      return r.2) = some (.ok [1 / 4, 0]) := by decide +kernel

end Sg.Props
