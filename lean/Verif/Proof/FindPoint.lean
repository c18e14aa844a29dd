import Verif.Proof.Interp
import Verif.Proof.LinearSolve
namespace Sg.FindPoint
open Sg.LinearSolve Sg.Spec

/-! ### any arithmetic -/
section generic
set_option linter.unusedSectionVars false
variable {F : Type} [Zero F] [One F] [Add F] [Sub F] [Mul F] [Div F] [Neg F] [LT F] [DecidableLT F]
  [LE F] [DecidableLE F] [DecidableEq F] [NatCast F] [IntCast F] [FOps F] {n : Nat}

/-- A library that leaves the sizes of the arrays alone. -/
def KeepsSizes (g : Gels F) : Prop := ∀ r : GelsArgs F, (g r).a.length = r.a.length ∧ (g r).b.length = r.b.length

/-- A solver object of the right size. -/
structure SolverOK (n : Nat) (s : Solver F) : Prop where
  wf : WF s
  nrow : s.nrow = n
  ncol : s.ncol = n
  lwork : s.lwork = max 1 (n + max n 1)

theorem solverOK_new (n : Nat) : SolverOK n (LinearSolve.new n n : Solver F) :=
  ⟨wf_new n n, rfl, rfl, by simp [LinearSolve.new]⟩

/-- What the library is asked. -/
def stepArgs (n : Nat) (a b : Nat → F) : GelsArgs F :=
  ⟨'T', n, n, 1, (List.range (n * n)).map a, n, (List.range n).map b, n, max 1 (n + max n 1)⟩

/-- The solver object after set, set, solve. -/
def afterSolve (g : Gels F) (n : Nat) (s : Solver F) (a b : Nat → F) : Solver F :=
  { s with
    mat := (g (stepArgs n a b)).a
    matOri := (List.range (n * n)).map a
    x := (g (stepArgs n a b)).b
    b := (List.range n).map b }

theorem afterSolve_ok (g : Gels F) (hg : KeepsSizes g) {n : Nat} (s : Solver F) (hs : SolverOK n s) (a b : Nat → F) :
    SolverOK n (afterSolve g n s a b) := by
  refine ⟨⟨?_, ?_, ?_, ?_⟩, hs.nrow, hs.ncol, hs.lwork⟩
  · show (g (stepArgs n a b)).a.length = s.nrow * s.ncol
    rw [(hg _).1, hs.nrow, hs.ncol]; simp [stepArgs]
  · show ((List.range (n * n)).map a).length = s.nrow * s.ncol
    rw [hs.nrow, hs.ncol]; simp
  · show ((List.range n).map b).length = s.nrow
    rw [hs.nrow]; simp
  · show (g (stepArgs n a b)).b.length = max s.nrow s.ncol
    rw [(hg _).2, hs.nrow, hs.ncol]; simp [stepArgs]

theorem solver_step {α : Type} (g : Gels F) {n : Nat} (hn : 1 ≤ n) (s : Solver F) (hs : SolverOK n s) (a b : Nat → F)
    (k : Solver F → Int → Cxx α) :
    (s.setMatrix a >>= fun s => s.setRightHandSide b >>= fun s => s.solve g >>= fun r => k r.1 r.2)
      = k (afterSolve g n s a b) (g (stepArgs n a b)).info := by
  have hp : 0 < n * n := Nat.mul_pos hn hn
  obtain ⟨mat, matOri, bb, x, lwork, nrow, ncol⟩ := s
  obtain ⟨⟨h1, h2, h3, h4⟩, h5, h6, h7⟩ := hs
  dsimp only at h1 h2 h3 h4 h5 h6 h7
  subst h5 h6 h7
  rw [setMatrix_ok _ ⟨h1, h2, h3, h4⟩]
  simp only [bind, Except.bind]
  rw [setRhs_ok _ ⟨by simp, by simp, h3, h4⟩]
  dsimp only
  have hx : x.drop ncol = [] := by apply List.drop_eq_nil_of_le; omega
  rw [hx, List.append_nil]
  unfold Solver.solve
  simp only [bind, Except.bind, pure, Except.pure]
  rw [vget_ok (by simpa using hp), vget_ok (by simp; omega)]
  dsimp only
  have : Solver.gelsArgs (⟨(List.range (ncol * ncol)).map a, (List.range (ncol * ncol)).map a,
    (List.range ncol).map b, (List.range ncol).map b, max 1 (ncol + max ncol 1), ncol, ncol⟩ : Solver F) =
      stepArgs ncol a b := by
    simp [Solver.gelsArgs, stepArgs]
  rw [this]
  rfl

/-- The solution read back from the library. -/
def solution (g : Gels F) (jac : Fin n → Fin n → F) (rhs : Fin n → F) : Fin n → F :=
  fun i => (g (stepArgs n (flatten2 jac) (flatten1 rhs))).b.getD i 0

/-- The indices after the update and the truncation. -/
def Finder.moved (g : Gels F) (s : Finder F n) (jac : Fin n → Fin n → F) (rhs : Fin n → F) : Fin n → F :=
  fun i => truncateIndex (s.indexPeriodicity i) (s.dims i) (s.dIndices i + solution g jac rhs i)

theorem next_eq (g : Gels F) (hg : KeepsSizes g) (hn : 1 ≤ n) (s : Finder F n) (b) (hb : s.bounds = some b) (slvr)
    (hs : s.slvr = some slvr) (hok : SolverOK n slvr) :
    s.next g = if s.inside b = false then .ok (-3, s) else
      s.computeJacobianAndRHS >>= fun jr =>
        let s' : Finder F n := { s with
          slvr := some (afterSolve g n slvr (flatten2 jr.1) (flatten1 jr.2))
          dIndices := s.moved g jr.1 jr.2 }
        s'.getError >>= fun e => .ok (s'.finishStep e) := by
  obtain ⟨sl, coords, bounds, per, dims, tp, nitermax, tolpos, iter, dI, eh, oe⟩ := s
  dsimp only at hb hs
  subst hb hs
  set s : Finder F n := ⟨some slvr, coords, some b, per, dims, tp, nitermax, tolpos, iter, dI, eh, oe⟩ with hsd
  unfold Finder.next
  rw [hsd]
  dsimp only
  rw [← hsd]
  cases hin : s.inside b
  · rfl
  · simp only [Bool.not_true, Bool.false_eq_true, if_false, Bool.true_eq_false]
    cases hc : s.computeJacobianAndRHS with
    | error e => rfl
    | ok jr =>
      obtain ⟨jac, rhs⟩ := jr
      show (slvr.setMatrix (flatten2 jac) >>= fun s1 => s1.setRightHandSide (flatten1 rhs) >>= fun s2 =>
        s2.solve g >>= fun r => _) = _
      refine (solver_step g hn slvr hok (flatten2 jac) (flatten1 rhs) (fun slvr _ => do
        let sol ← forAxes fun i : Fin n => vget slvr.getSolution i
        let s := { s with
          slvr := some slvr
          dIndices := fun i => truncateIndex (s.indexPeriodicity i) (s.dims i) (s.dIndices i + sol i) }
        let posError ← s.getError
        return s.finishStep posError)).trans ?_
      have hlen : (afterSolve g n slvr (flatten2 jac) (flatten1 rhs)).x.length = n := by
        show (g _).b.length = n
        rw [(hg _).2]; simp [stepArgs]
      rw [forAxes_ok _ (solution g jac rhs)]
      · rfl
      · intro i
        show vget (afterSolve g n slvr (flatten2 jac) (flatten1 rhs)).x i = _
        have hi := i.2
        rw [vget_ok (by omega)]
        have : (g (stepArgs n (flatten2 jac) (flatten1 rhs))).b.length = n := hlen
        simp only [solution, List.getD_eq_getElem?_getD]
        rw [List.getElem?_eq_getElem (by omega)]
        rfl

end generic
end Sg.FindPoint

namespace Sg.FindPoint
open Sg.LinearSolve Sg.Spec
section generic
set_option linter.unusedSectionVars false
variable {F : Type} [Zero F] [One F] [Add F] [Sub F] [Mul F] [Div F] [Neg F] [LT F] [DecidableLT F]
  [LE F] [DecidableLE F] [DecidableEq F] [NatCast F] [IntCast F] [FOps F] {n : Nat}

theorem bind_ok_inv {α β : Type} {x : Cxx α} {f : α → Cxx β} {r : β} (h : (x >>= f) = .ok r) :
    ∃ a, x = .ok a ∧ f a = .ok r := by
  cases x with
  | error e => cases h
  | ok a => exact ⟨a, rfl, h⟩

/-- Everything one can say of a call of `next` that comes back. -/
theorem next_inv (g : Gels F) (s : Finder F n) (c : Int) (s' : Finder F n) (h : s.next g = .ok (c, s')) :
    (c = -3 ∧ s' = s ∧ ∃ b, s.bounds = some b ∧ s.inside b = false) ∨
    ∃ (slvr : Solver F) (jac : Fin n → Fin n → F) (rhs : Fin n → F) (sol : Fin n → F) (e : F) (b : _), s.bounds = some b ∧ s.inside b = true ∧ s.computeJacobianAndRHS = .ok (jac, rhs) ∧
      ({ s with
        slvr := some slvr
        dIndices := fun i => truncateIndex (s.indexPeriodicity i) (s.dims i) (s.dIndices i + sol i) } :
          Finder F n).getError = .ok e ∧
      (c, s') = ({ s with
        slvr := some slvr
        dIndices := fun i => truncateIndex (s.indexPeriodicity i) (s.dims i) (s.dIndices i + sol i) } :
          Finder F n).finishStep e := by
  unfold Finder.next at h
  cases hb : s.bounds with
  | none => rw [hb] at h; cases h
  | some b =>
    cases hs : s.slvr with
    | none => rw [hb, hs] at h; cases h
    | some slvr =>
      rw [hb, hs] at h
      dsimp only at h
      cases hin : s.inside b with
      | false =>
        rw [hin] at h
        simp only [Bool.not_false, if_true, pure, Except.pure, Except.ok.injEq, Prod.mk.injEq] at h
        exact .inl ⟨h.1.symm, h.2.symm, b, rfl, hin⟩
      | true =>
        rw [hin] at h
        simp only [Bool.not_true, Bool.false_eq_true, if_false] at h
        obtain ⟨⟨jac, rhs⟩, hj, h⟩ := bind_ok_inv h
        obtain ⟨s1, h1, h⟩ := bind_ok_inv h
        obtain ⟨s2, h2, h⟩ := bind_ok_inv h
        obtain ⟨⟨s3, info⟩, h3, h⟩ := bind_ok_inv h
        obtain ⟨sol, h4, h⟩ := bind_ok_inv h
        obtain ⟨e, h5, h⟩ := bind_ok_inv h
        refine .inr ⟨s3, jac, rhs, sol, e, b, rfl, hin, hj, ?_, ?_⟩
        · exact h5
        · simp only [pure, Except.pure, Except.ok.injEq] at h
          rw [← h]

/-- What a call of `next` leaves alone. -/
theorem next_frame (g : Gels F) (s : Finder F n) (c : Int) (s' : Finder F n) (h : s.next g = .ok (c, s')) :
    s'.coords = s.coords ∧ s'.bounds = s.bounds ∧ s'.dims = s.dims ∧ s'.targetPoint = s.targetPoint ∧
    s'.nitermax = s.nitermax ∧ s'.tolpos = s.tolpos ∧ s'.indexPeriodicity = s.indexPeriodicity := by
  rcases next_inv g s c s' h with ⟨_, rfl, _⟩ | ⟨slvr, jac, rhs, sol, e, b, hb, _, _, _, h⟩
  · simp
  · unfold Finder.finishStep at h
    dsimp only at h
    split_ifs at h <;> · rw [Prod.mk.injEq] at h; obtain ⟨_, rfl⟩ := h; simp

/-- Bookkeeping of a call of `next` that moved. -/
theorem finishStep_spec (s : Finder F n) (e : F) (c : Int) (s' : Finder F n) (h : (c, s') = s.finishStep e) :
    s'.iter = s.iter + 1 ∧ s'.errorHistory = s.errorHistory ++ [e] ∧ s'.getError = s.getError ∧
    s'.dIndices = s.dIndices ∧ s'.nitermax = s.nitermax ∧ s'.tolpos = s.tolpos ∧
    (c = 1 ∨ c = 0 ∨ c = -1 ∨ c = -2) ∧ (c = 1 → e < s.tolpos ∧ s'.iter < s.nitermax) ∧
    (c = 0 → ¬ e < s.tolpos ∧ s'.iter < s.nitermax ∧ s'.oldError = e) ∧ (c = -1 → s.nitermax ≤ s'.iter) ∧
    (c = -2 → 3 ≤ s'.errorHistory.length ∧
      s'.errorHistory.getD (s'.errorHistory.length - 3) 0 + FOps.eps100 < e) := by
  unfold Finder.finishStep at h
  dsimp only at h
  split_ifs at h with h1 h2 h3 <;>
  · rw [Prod.mk.injEq] at h
    obtain ⟨rfl, rfl⟩ := h
    simp_all [Finder.getError, Finder.getPosition]

/-- The grid is set and the solver is fit for use. -/
def Ready (s : Finder F n) : Prop := (∃ b, s.bounds = some b) ∧ ∃ slvr, s.slvr = some slvr ∧ SolverOK n slvr

theorem ready_setGrid (s : Finder F n) (dims per coords) : Ready (s.setGrid dims per coords) :=
  ⟨⟨_, rfl⟩, _, rfl, solverOK_new n⟩

theorem ready_reset (s : Finder F n) (d t) (h : Ready s) : Ready (s.reset d t) := h

theorem finishStep_slvr (s : Finder F n) (e : F) :
    (s.finishStep e).2.slvr = s.slvr ∧ (s.finishStep e).2.bounds = s.bounds := by
  unfold Finder.finishStep
  dsimp only
  split_ifs <;> simp

theorem ready_next (g : Gels F) (hg : KeepsSizes g) (hn : 1 ≤ n) (s : Finder F n) (c : Int) (s' : Finder F n)
    (hr : Ready s) (h : s.next g = .ok (c, s')) : Ready s' := by
  obtain ⟨⟨b, hb⟩, slvr, hs, hok⟩ := hr
  rw [next_eq g hg hn s b hb slvr hs hok] at h
  split_ifs at h
  · simp only [Except.ok.injEq, Prod.mk.injEq] at h
    rw [← h.2]
    exact ⟨⟨b, hb⟩, slvr, hs, hok⟩
  · obtain ⟨jr, _, h⟩ := bind_ok_inv h
    obtain ⟨e, _, h⟩ := bind_ok_inv h
    simp only [Except.ok.injEq] at h
    rw [show s' = (c, s').2 from rfl, ← h]
    refine ⟨⟨b, by rw [(finishStep_slvr _ e).2]; exact hb⟩, _, (finishStep_slvr _ e).1, afterSolve_ok g hg slvr hok _ _⟩

/-- Same finder, but for the contents of the solver's arrays and the error left by an earlier search. -/
structure Sim (a b : Finder F n) : Prop where
  coords : a.coords = b.coords
  bounds : a.bounds = b.bounds
  per : a.indexPeriodicity = b.indexPeriodicity
  dims : a.dims = b.dims
  tp : a.targetPoint = b.targetPoint
  nitermax : a.nitermax = b.nitermax
  tolpos : a.tolpos = b.tolpos
  iter : a.iter = b.iter
  dI : a.dIndices = b.dIndices
  eh : a.errorHistory = b.errorHistory
  oe : a.errorHistory ≠ [] → a.oldError = b.oldError

/-- Two outcomes that are alike. -/
def SimOut : Cxx (Int × Finder F n) → Cxx (Int × Finder F n) → Prop
  | .ok r, .ok r' => r.1 = r'.1 ∧ (r.1 = 0 → Sim r.2 r'.2) ∧ r.2.dIndices = r'.2.dIndices ∧
      r.2.errorHistory = r'.2.errorHistory ∧ r.2.iter = r'.2.iter
  | .error e, .error e' => e = e'
  | _, _ => False

theorem simOut_finish (a b : Finder F n) (h : Sim a b) (e : F) : SimOut (.ok (a.finishStep e)) (.ok (b.finishStep e)) := by
  obtain ⟨asl, ac, ab, ap, ad, at', an, atol, ai, adI, aeh, aoe⟩ := a
  obtain ⟨bsl, bc, bb, bp, bd, bt, bn, btol, bi, bdI, beh, boe⟩ := b
  obtain ⟨h1, h2, h3, h4, h5, h6, h7, h8, h9, h10, h11⟩ := h
  dsimp only at h1 h2 h3 h4 h5 h6 h7 h8 h9 h10 h11
  subst h1 h2 h3 h4 h5 h6 h7 h8 h9 h10
  unfold Finder.finishStep
  dsimp only
  by_cases he : aeh = []
  · subst he
    simp only [List.nil_append, List.length_cons, List.length_nil]
    have hne : ∀ p q : Prop, ¬ (p ∧ 3 ≤ 0 + 1 ∧ q) := by intro p q h; omega
    rw [if_neg (hne _ _), if_neg (hne _ _)]
    split_ifs
    all_goals first
      | (simp only [SimOut]; refine ⟨trivial, ?_, trivial, trivial, trivial⟩; intro h; exact absurd h (by decide))
      | (simp only [SimOut]; refine ⟨trivial, fun _ => ?_, trivial, trivial, trivial⟩; constructor <;> first | rfl | (intro _; rfl))
  · have := h11 he
    subst this
    split_ifs
    all_goals first
      | (simp only [SimOut]; refine ⟨trivial, ?_, trivial, trivial, trivial⟩; intro h; exact absurd h (by decide))
      | (simp only [SimOut]; refine ⟨trivial, fun _ => ?_, trivial, trivial, trivial⟩; constructor <;> first | rfl | (intro _; rfl))

theorem sim_next (g : Gels F) (hg : KeepsSizes g) (hn : 1 ≤ n) (a b : Finder F n) (ha : Ready a) (hb : Ready b)
    (h : Sim a b) : SimOut (a.next g) (b.next g) := by
  obtain ⟨⟨ba, hba⟩, sla, hsa, hoka⟩ := ha
  obtain ⟨⟨bb, hbb⟩, slb, hsb, hokb⟩ := hb
  rw [next_eq g hg hn a ba hba sla hsa hoka, next_eq g hg hn b bb hbb slb hsb hokb]
  have ebb : ba = bb := by have := h.bounds; rw [hba, hbb] at this; exact Option.some.inj this
  subst ebb
  have hin : a.inside ba = b.inside ba := by unfold Finder.inside; rw [h.tp]
  rw [hin]
  split_ifs
  · exact ⟨rfl, fun _ => h, h.dI, h.eh, h.iter⟩
  · have hj : a.computeJacobianAndRHS = b.computeJacobianAndRHS := by
      unfold Finder.computeJacobianAndRHS
      rw [h.dims, h.dI, h.coords, h.tp]
    rw [hj]
    cases hjb : b.computeJacobianAndRHS with
    | error e => rfl
    | ok jr =>
      simp only [bind, Except.bind]
      have hm : a.moved g jr.1 jr.2 = b.moved g jr.1 jr.2 := by
        unfold Finder.moved; rw [h.per, h.dims, h.dI]
      have hs : Sim { a with slvr := some (afterSolve g n sla (flatten2 jr.1) (flatten1 jr.2)), dIndices := a.moved g jr.1 jr.2 }
          { b with slvr := some (afterSolve g n slb (flatten2 jr.1) (flatten1 jr.2)), dIndices := b.moved g jr.1 jr.2 } :=
        ⟨h.coords, h.bounds, h.per, h.dims, h.tp, h.nitermax, h.tolpos, h.iter, hm, h.eh, h.oe⟩
      have he : ∀ (x y : Finder F n), Sim x y → x.getError = y.getError := by
        intro x y hxy
        unfold Finder.getError Finder.getPosition
        rw [hxy.dims, hxy.dI, hxy.coords, hxy.tp]
      rw [he _ _ hs]
      split
      · rfl
      · exact simOut_finish _ _ hs _

theorem sim_loop (g : Gels F) (hg : KeepsSizes g) (hn : 1 ≤ n) : ∀ (k : Nat) (a b : Finder F n), Ready a → Ready b →
    Sim a b → SimOut (searchLoop g k a) (searchLoop g k b)
  | 0, a, b, _, _, h => ⟨rfl, fun _ => h, h.dI, h.eh, h.iter⟩
  | k + 1, a, b, ha, hb, h => by
    have hs := sim_next g hg hn a b ha hb h
    unfold searchLoop
    cases h1 : a.next g with
    | error e =>
      cases h2 : b.next g with
      | error e' => rw [h1, h2] at hs; exact hs
      | ok r' => rw [h1, h2] at hs; exact hs.elim
    | ok r =>
      cases h2 : b.next g with
      | error e' => rw [h1, h2] at hs; exact hs.elim
      | ok r' =>
        rw [h1, h2] at hs
        obtain ⟨hc, h0, h3⟩ := hs
        obtain ⟨c, a'⟩ := r
        obtain ⟨c', b'⟩ := r'
        dsimp only at hc h0 h3
        subst hc
        simp only [bind, Except.bind]
        split_ifs with hz
        · exact sim_loop g hg hn k a' b' (ready_next g hg hn a c a' ha h1) (ready_next g hg hn b c b' hb h2) (h0 hz)
        · exact ⟨rfl, fun h => absurd h hz, h3⟩

end generic
end Sg.FindPoint
