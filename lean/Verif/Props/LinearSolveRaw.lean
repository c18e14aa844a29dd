import Verif.Model.LinearSolveRaw
import Verif.Proof.FindPointRaw
import Verif.Proof.GridsRaw
import Verif.Props.LinearSolve
/-
Property C126: the linear solver with the integers and the memory of the interface.
-/
namespace Sg.Props
open Sg Sg.LinearSolve Sg.FindPoint

variable {F : Type}

/-- The object with integers that corresponds to one of the model with natural sizes. -/
def ofSolver (s : Solver F) : RSolver F :=
  { mat := s.mat, matOri := s.matOri, b := s.b, x := s.x, workSize := s.lwork, lwork := s.lwork, nrow := s.nrow, ncol := s.ncol }

/-- Calls with the memory behind the pointers. -/
inductive SolverCall (F : Type)
  | setMatrix (a : List F)
  | setRightHandSide (b : List F)
  | solve

def SolverCall.exec (g : Gels F) (s : RSolver F) : SolverCall F → Cxx (RSolver F)
  | .setMatrix a => s.setMatrix a
  | .setRightHandSide b => s.setRightHandSide b
  | .solve => do let r ← s.solve g; return r.1

def runSolverCalls (g : Gels F) : RSolver F → List (SolverCall F) → Cxx (RSolver F)
  | s, [] => .ok s
  | s, c :: cs => do let s ← c.exec g s; runSolverCalls g s cs

/-- The memory holds at least as many numbers as the system needs. -/
def SolverCall.Enough (nrow ncol : Nat) : SolverCall F → Prop
  | .setMatrix a => nrow * ncol ≤ a.length
  | .setRightHandSide b => nrow ≤ b.length
  | .solve => True

/-- What the call means: the numbers in memory. -/
def SolverCall.meant [Zero F] : SolverCall F → SolverOp F
  | .setMatrix a => .setMatrix fun k => a.getD k 0
  | .setRightHandSide b => .setRightHandSide fun k => b.getD k 0
  | .solve => .solve

/-- What can happen on construction, for all pairs of integers. -/
inductive NewOutcome
  | made | overflow | thrown
  deriving DecidableEq

def newOutcome (nrow ncol : Int) : NewOutcome :=
  if ¬ inI32 (nrow * ncol) then .overflow
  else if nrow < 0 ∨ nrow * ncol < 0 then .thrown
  else .made

theorem resize_nil_nat {α : Type} {k : Nat} (a : α) (h : k ≤ 2147483647) : resize [] (toSize (k : Int)) a = .ok (List.replicate k a) := by
  rw [toSize_nat (by omega), resize_ok (by omega)]
  simp [rsz]

theorem resize_nil_neg {α : Type} {x : Int} (a : α) (h : inI32 x) (h0 : x < 0) :
    resize ([] : List α) (toSize x) a = .error .lengthError := by
  unfold resize
  rw [if_neg (by have := toSize_neg h.1 h0; omega)]

theorem imul_eq {a b : Int} (h : inI32 (a * b)) : imul a b = .ok (a * b) := by unfold imul chk; rw [if_pos h]
theorem iadd_eq {a b : Int} (h : inI32 (a + b)) : iadd a b = .ok (a + b) := by unfold iadd chk; rw [if_pos h]

theorem new_nat [Zero F] {nrow ncol : Nat} (hr : nrow ≤ 2147483647) (hc : ncol ≤ 2147483647) (h : nrow * ncol ≤ 2147483647) :
    (RSolver.new nrow ncol : Call' (RSolver F)) = .ok (ofSolver (LinearSolve.new nrow ncol)) := by
  have hp : imul (nrow : Int) ncol = .ok ((nrow * ncol : Nat) : Int) := by
    rw [imul_eq (by rw [← Nat.cast_mul]; unfold inI32; omega)]; push_cast; rfl
  have hmn : ∃ m : Nat, (if (nrow : Int) < ncol then (nrow : Int) else ncol) = m ∧ (if nrow < ncol then nrow else ncol) = m ∧ m ≤ 46340 := by
    refine ⟨if nrow < ncol then nrow else ncol, ?_, rfl, ?_⟩
    · split_ifs <;> omega
    · by_contra hlt
      push Not at hlt
      have h1 : 46341 ≤ nrow := by split_ifs at hlt <;> omega
      have h2 : 46341 ≤ ncol := by split_ifs at hlt <;> omega
      have := Nat.mul_le_mul h1 h2
      omega
  have hld : ∃ l : Nat, (if (ncol : Int) < nrow then (nrow : Int) else ncol) = l ∧ (if ncol < nrow then nrow else ncol) = l ∧ l ≤ 2147483647 := by
    refine ⟨if ncol < nrow then nrow else ncol, ?_, rfl, ?_⟩ <;> split_ifs <;> omega
  obtain ⟨m, em, em', hm⟩ := hmn
  obtain ⟨l, el, el', hl⟩ := hld
  have h1 : imul (max (m : Int) 1) 1 = .ok ((max m 1 : Nat) : Int) := by
    rw [imul_eq (by unfold inI32; omega)]; push_cast; simp
  have h2 : iadd (m : Int) ((max m 1 : Nat) : Int) = .ok ((m + max m 1 : Nat) : Int) := by
    rw [iadd_eq (by unfold inI32; omega)]; push_cast; rfl
  have h3 : max 1 ((m + max m 1 : Nat) : Int) = ((max 1 (m + max m 1) : Nat) : Int) := by push_cast; rfl
  have r1 : resize [] (toSize ((max 1 (m + max m 1) : Nat) : Int)) (0 : F) = .ok (List.replicate (max 1 (m + max m 1)) 0) :=
    resize_nil_nat 0 (by omega)
  unfold RSolver.new LinearSolve.new ofSolver
  simp only [em, em', el, el', hp, lift', bind, Except.bind, h1, h2, h3, r1, resize_nil_nat (0 : F) h, resize_nil_nat (0 : F) hr,
    resize_nil_nat (0 : F) hl, List.length_replicate, mul_one]
  rfl

/-- **C126** construction, for all integers: it is refused by an exception or undefined, exactly as `newOutcome` says: an object is made
if and only if the product of the sizes is an `int` that is not negative and the number of rows is not negative.  If both sizes are
not negative it is the object with these sizes. -/
theorem C126_new [Zero F] (nrow ncol : Int) (hr : inI32 nrow) (hc : inI32 ncol) :
    (newOutcome nrow ncol = .made → ∃ s : RSolver F, RSolver.new nrow ncol = .ok s) ∧
    (newOutcome nrow ncol = .overflow → (RSolver.new nrow ncol : Call' (RSolver F)) = .error (.undefined .signedOverflow)) ∧
    (newOutcome nrow ncol = .thrown → (RSolver.new nrow ncol : Call' (RSolver F)) = .error .lengthError) := by
  refine ⟨?_, ?_, ?_⟩
  · intro h
    unfold newOutcome at h
    split_ifs at h with h1 h2
    push Not at h2
    obtain ⟨h2, h3⟩ := h2
    rcases lt_or_ge ncol 0 with hn | hn
    · -- no rows
      have h0 : nrow = 0 := by
        rcases eq_or_lt_of_le h2 with e | e
        · exact e.symm
        · exact absurd (mul_neg_of_pos_of_neg e hn) (by omega)
      subst h0
      have e1 : imul ((0 : Nat) : Int) ncol = .ok ((0 : Nat) : Int) := by rw [imul_eq (by simp [inI32])]; simp
      have e2 : imul (max ncol 1) 1 = .ok 1 := by rw [imul_eq (by rw [max_eq_right (by omega)]; simp [inI32]), max_eq_right (by omega)]; simp
      have e3 : iadd ncol 1 = .ok (ncol + 1) := iadd_eq (by unfold inI32 at hc ⊢; omega)
      have e4 : max 1 (ncol + 1) = ((1 : Nat) : Int) := by rw [max_eq_left (by omega)]; rfl
      unfold RSolver.new
      rw [if_pos hn, if_neg (by omega)]
      have r0 := resize_nil_nat (0 : F) (k := 0) (by omega)
      have r1 := resize_nil_nat (0 : F) (k := 1) (by omega)
      simp only [e1, e2, e3, e4, lift', bind, Except.bind, r0, r1, show (0 : Int) = ((0 : Nat) : Int) from rfl]
      exact ⟨_, rfl⟩
    · obtain ⟨a, rfl⟩ := Int.eq_ofNat_of_zero_le h2
      obtain ⟨b, rfl⟩ := Int.eq_ofNat_of_zero_le hn
      unfold inI32 at hr hc h1
      refine ⟨_, new_nat (by omega) (by omega) ?_⟩
      have : ((a * b : Nat) : Int) ≤ 2147483647 := by rw [Nat.cast_mul]; exact h1.2
      omega
  · intro h
    unfold newOutcome at h
    split_ifs at h with h1
    unfold RSolver.new imul chk
    simp only [if_neg h1, lift', bind, Except.bind]
  · intro h
    unfold newOutcome at h
    split_ifs at h with h1 h2
    unfold RSolver.new
    simp only [imul_eq h1, lift', bind, Except.bind]
    rcases lt_or_ge (nrow * ncol) 0 with hn | hn
    · rw [resize_nil_neg _ h1 hn]
    · obtain ⟨p, hp⟩ := Int.eq_ofNat_of_zero_le hn
      have hp' : nrow * ncol = (p : Int) := hp
      rw [hp'] at h1 ⊢
      rw [resize_nil_nat (0 : F) (k := p) (by unfold inI32 at h1; omega)]
      dsimp only
      have : nrow < 0 := by omega
      rw [resize_nil_neg _ hr this]

section calls
set_option linter.unusedSectionVars false
variable [Zero F]

theorem idx_eq {nrow ncol i j : Nat} (h : nrow * ncol ≤ 2147483647) (hi : i < nrow) (hj : j < ncol) :
    imul (i : Int) ncol = .ok ((i * ncol : Nat) : Int) ∧ iadd ((i * ncol : Nat) : Int) j = .ok ((i * ncol + j : Nat) : Int) ∧
    toSize ((i * ncol + j : Nat) : Int) = i * ncol + j ∧ i * ncol + j < nrow * ncol := by
  have hlt : i * ncol + j < nrow * ncol := by
    have := Nat.mul_le_mul_right ncol hi
    rw [Nat.succ_mul] at this; omega
  refine ⟨?_, ?_, toSize_nat (by omega), hlt⟩
  · rw [imul_eq (by rw [← Nat.cast_mul]; unfold inI32; omega)]; push_cast; rfl
  · rw [iadd_eq (by rw [← Nat.cast_add]; unfold inI32; omega)]; push_cast; rfl

theorem vget_getD {l : List F} {k : Nat} (h : k < l.length) : vget l k = .ok (l.getD k 0) := by
  rw [vget_ok h]; simp [h]

theorem forFrom_map_lt {σ τ : Type} (g : σ → τ) (f : Nat → σ → Cxx σ) (f' : Nat → τ → Cxx τ) : ∀ (n start : Nat) (s : σ),
    (∀ k s, start ≤ k → k < start + n → f' k (g s) = (f k s).map g) → forFrom start n (g s) f' = (forFrom start n s f).map g
  | 0, _, _, _ => rfl
  | n + 1, start, s, h => by
    simp only [forFrom, h start s (Nat.le_refl _) (by omega)]
    cases f start s with
    | error e => rfl
    | ok s' => exact forFrom_map_lt g f f' n (start + 1) s' fun k s a b => h k s (by omega) (by omega)

theorem forN_map_lt {σ τ : Type} (g : σ → τ) (f : Nat → σ → Cxx σ) (f' : Nat → τ → Cxx τ) (n : Nat) (s : σ)
    (h : ∀ k s, k < n → f' k (g s) = (f k s).map g) : forN n (g s) f' = (forN n s f).map g :=
  forFrom_map_lt g f f' n 0 s fun k s _ hk => h k s (by omega)

theorem setMatrix_raw (s : Solver F) {a : List F} (h : s.nrow * s.ncol ≤ 2147483647) (ha : s.nrow * s.ncol ≤ a.length) :
    (ofSolver s).setMatrix a = (s.setMatrix fun k => a.getD k 0).map ofSolver := by
  unfold RSolver.setMatrix Solver.setMatrix
  refine forN_map_lt ofSolver _ _ s.nrow s fun i t hi => ?_
  refine forN_map_lt ofSolver _ _ s.ncol t fun j t hj => ?_
  obtain ⟨e1, e2, e3, hlt⟩ := idx_eq h hi hj
  have ev : vget a (i * s.ncol + j) = .ok (a.getD (i * s.ncol + j) 0) := vget_getD (by omega)
  show (do
    let r ← imul (i : Int) (s.ncol : Int)
    let k ← iadd r j
    let v ← vget a (toSize k)
    let m ← vset t.mat (toSize k) v
    let w ← vget a (toSize k)
    let mo ← vset t.matOri (toSize k) w
    return { ofSolver t with mat := m, matOri := mo } : Cxx (RSolver F)) = _
  simp only [e1, e2, e3, ev, bind, Except.bind]
  cases vset t.mat (i * s.ncol + j) (a.getD (i * s.ncol + j) 0) with
  | error e => rfl
  | ok m =>
    cases vset t.matOri (i * s.ncol + j) (a.getD (i * s.ncol + j) 0) with
    | error e => rfl
    | ok mo => rfl

theorem setRhs_raw (s : Solver F) {b : List F} (hb : s.nrow ≤ b.length) :
    (ofSolver s).setRightHandSide b = (s.setRightHandSide fun k => b.getD k 0).map ofSolver := by
  unfold RSolver.setRightHandSide Solver.setRightHandSide
  refine forN_map_lt ofSolver _ _ s.nrow s fun i t hi => ?_
  have ev : vget b i = .ok (b.getD i 0) := vget_getD (by omega)
  show (do
    let v ← vget b i
    let x ← vset t.x i v
    let w ← vget b i
    let b' ← vset t.b i w
    return { ofSolver t with x := x, b := b' } : Cxx (RSolver F)) = _
  simp only [ev, bind, Except.bind]
  cases vset t.x i (b.getD i 0) with
  | error e => rfl
  | ok m =>
    cases vset t.b i (b.getD i 0) with
    | error e => rfl
    | ok mo => rfl

theorem solve_raw (g : Gels F) (s : Solver F) (hw : s.lwork ≠ 0) :
    (ofSolver s).solve g = (s.solve g).map fun r => (ofSolver r.1, r.2) := by
  show (do
    let _ ← vget s.mat 0
    let _ ← vget s.x 0
    if s.lwork = 0 then throw .outOfBounds
    let out := g s.gelsArgs
    return ({ ofSolver s with mat := out.a, x := out.b }, out.info) : Cxx (RSolver F × Int)) = _
  unfold Solver.solve
  rw [if_neg hw]
  cases vget s.mat 0 with
  | error e => rfl
  | ok m =>
    cases vget s.x 0 with
    | error e => rfl
    | ok x => rfl

theorem residual_raw [Add F] [Sub F] [Mul F] (abs : F → F) (s : Solver F) (h : s.nrow * s.ncol ≤ 2147483647) :
    (ofSolver s).getResidual abs = s.getResidual abs := by
  unfold RSolver.getResidual Solver.getResidual
  refine forN_congr _ _ s.nrow 0 fun i res hi => ?_
  have : forN s.ncol (0 : F) (fun j val => do
      let r ← imul (i : Int) (s.ncol : Int)
      let k ← iadd r j
      let a ← vget s.matOri (toSize k)
      let x ← vget s.x j
      return val + a * x) = forN s.ncol 0 fun j val => do
      let k := i * s.ncol + j
      let a ← vget s.matOri k
      let x ← vget s.x j
      return val + a * x := by
    refine forN_congr _ _ s.ncol 0 fun j val hj => ?_
    obtain ⟨e1, e2, e3, -⟩ := idx_eq h hi hj
    simp only [e1, e2, e3, bind, Except.bind]
  exact congrArg (fun c : Cxx F => do
    let val ← c
    let bi ← vget s.b i
    return res + abs (val - bi)) this

theorem setMatrix_sizes (s t : Solver F) (a : Nat → F) (h : s.setMatrix a = .ok t) : t.nrow = s.nrow ∧ t.ncol = s.ncol ∧ t.lwork = s.lwork := by
  unfold Solver.setMatrix at h
  refine forN_inv_ok (fun _ (t : Solver F) => t.nrow = s.nrow ∧ t.ncol = s.ncol ∧ t.lwork = s.lwork) _ _ _ _ ⟨rfl, rfl, rfl⟩ ?_ h
  intro i u u' _ hu h
  refine forN_inv_ok (fun _ (t : Solver F) => t.nrow = s.nrow ∧ t.ncol = s.ncol ∧ t.lwork = s.lwork) _ _ _ _ hu ?_ h
  intro j u u' _ hu h
  obtain ⟨m, -, h⟩ := bind_ok_inv h
  obtain ⟨mo, -, h⟩ := bind_ok_inv h
  cases h
  exact hu

theorem setRhs_sizes (s t : Solver F) (b : Nat → F) (h : s.setRightHandSide b = .ok t) : t.nrow = s.nrow ∧ t.ncol = s.ncol ∧ t.lwork = s.lwork := by
  unfold Solver.setRightHandSide at h
  refine forN_inv_ok (fun _ (t : Solver F) => t.nrow = s.nrow ∧ t.ncol = s.ncol ∧ t.lwork = s.lwork) _ _ _ _ ⟨rfl, rfl, rfl⟩ ?_ h
  intro i u u' _ hu h
  obtain ⟨m, -, h⟩ := bind_ok_inv h
  obtain ⟨mo, -, h⟩ := bind_ok_inv h
  cases h
  exact hu

end calls

section field
set_option linter.unusedSectionVars false
variable {K : Type} [Field K] [LinearOrder K]

theorem exec_sizes (g : Gels K) (s t : Solver K) (op : SolverOp K) (h : op.exec g s = .ok t) :
    t.nrow = s.nrow ∧ t.ncol = s.ncol ∧ t.lwork = s.lwork := by
  cases op with
  | setMatrix a => exact setMatrix_sizes s t a h
  | setRightHandSide b => exact setRhs_sizes s t b h
  | solve =>
    obtain ⟨r, hr, h⟩ := bind_ok_inv h
    cases h
    unfold Solver.solve at hr
    obtain ⟨_, -, hr⟩ := bind_ok_inv hr
    obtain ⟨_, -, hr⟩ := bind_ok_inv hr
    cases hr
    exact ⟨rfl, rfl, rfl⟩

theorem exec_raw (g : Gels K) (s : Solver K) (h : s.nrow * s.ncol ≤ 2147483647) (hw : s.lwork ≠ 0) (c : SolverCall K)
    (hc : c.Enough s.nrow s.ncol) : c.exec g (ofSolver s) = (c.meant.exec g s).map ofSolver := by
  cases c with
  | setMatrix a => exact setMatrix_raw s h hc
  | setRightHandSide b => exact setRhs_raw s hc
  | solve =>
    show (do let r ← (ofSolver s).solve g; return r.1) = ((do let r ← s.solve g; return r.1 : Cxx (Solver K)).map ofSolver)
    rw [solve_raw g s hw]
    cases s.solve g <;> rfl

theorem run_raw (g : Gels K) {nrow ncol : Nat} (h : nrow * ncol ≤ 2147483647) : ∀ (cs : List (SolverCall K)) (s : Solver K),
    s.nrow = nrow → s.ncol = ncol → s.lwork ≠ 0 → (∀ c ∈ cs, c.Enough nrow ncol) →
    runSolverCalls g (ofSolver s) cs = (runOps g s (cs.map SolverCall.meant)).map ofSolver ∧
    ∀ t, runOps g s (cs.map SolverCall.meant) = .ok t → t.nrow = nrow ∧ t.ncol = ncol ∧ t.lwork ≠ 0
  | [], s, h1, h2, h3, _ => ⟨rfl, fun t ht => by cases ht; exact ⟨h1, h2, h3⟩⟩
  | c :: cs, s, h1, h2, h3, hc => by
    have he := exec_raw g s (by rw [h1, h2]; exact h) h3 c (by rw [h1, h2]; exact hc c (by simp))
    cases hm : c.meant.exec g s with
    | error e =>
      rw [hm] at he
      refine ⟨?_, fun t ht => ?_⟩
      · simp only [runSolverCalls, runOps, List.map_cons, he, hm, bind, Except.bind, Except.map]
      · simp only [runOps, List.map_cons, hm, bind, Except.bind] at ht
        cases ht
    | ok u =>
      rw [hm] at he
      obtain ⟨a1, a2, a3⟩ := exec_sizes g s u c.meant hm
      obtain ⟨ih1, ih2⟩ := run_raw g h cs u (a1.trans h1) (a2.trans h2) (by rw [a3]; exact h3) fun c hc' => hc c (by simp [hc'])
      refine ⟨?_, fun t ht => ?_⟩
      · simp only [runSolverCalls, runOps, List.map_cons, he, hm, bind, Except.bind, Except.map]
        exact ih1
      · simp only [runOps, List.map_cons, hm, bind, Except.bind] at ht
        exact ih2 t ht

/-- **C126** histories: for all sizes that are not negative and whose product is an `int`, every library and every sequence of calls whose
pointers lead to at least as many numbers as the system has, the calls have the effect they have in the model with natural sizes on
the numbers in memory: the same solution, code and residual, undefined exactly where that one is.  So C10 to C13 are about the
interface with `int` and pointers. -/
theorem C126_history (g : Gels K) (abs : K → K) {nrow ncol : Nat} (hr : nrow ≤ 2147483647) (hc : ncol ≤ 2147483647)
    (h : nrow * ncol ≤ 2147483647) (cs : List (SolverCall K)) (he : ∀ c ∈ cs, c.Enough nrow ncol) :
    ∃ s : RSolver K, RSolver.new nrow ncol = .ok s ∧
      ((∃ t, runOps g (LinearSolve.new nrow ncol) (cs.map SolverCall.meant) = .ok t ∧ runSolverCalls g s cs = .ok (ofSolver t) ∧
          (ofSolver t).solve g = (t.solve g).map (fun r => (ofSolver r.1, r.2)) ∧
          (ofSolver t).getResidual abs = t.getResidual abs ∧
          (t.x ≠ [] → (ofSolver t).getSolution = .ok t.getSolution)) ∨
       ∃ e, runOps g (LinearSolve.new nrow ncol) (cs.map SolverCall.meant) = .error e ∧ runSolverCalls g s cs = .error e) := by
  refine ⟨_, new_nat hr hc h, ?_⟩
  obtain ⟨h1, h2⟩ := run_raw g h cs (LinearSolve.new nrow ncol) rfl rfl (by simp [LinearSolve.new]) he
  rw [h1]
  cases hm : runOps g (LinearSolve.new nrow ncol) (cs.map SolverCall.meant) with
  | error e => exact .inr ⟨e, rfl, rfl⟩
  | ok t =>
    obtain ⟨a1, a2, a3⟩ := h2 t hm
    exact .inl ⟨t, rfl, rfl, solve_raw g t a3, residual_raw abs t (by rw [a1, a2]; exact h), fun hx => by
      show (do let _ ← vget t.x 0; return t.x : Cxx (List K)) = _
      rw [vget_ok (List.length_pos_iff.2 hx)]; rfl⟩

end field

/-- **C126** too little memory: a matrix with fewer than `nrow * ncol` numbers is read past its end, whatever the object holds. -/
theorem C126_short_matrix (s : RSolver F) {nrow ncol : Nat} (h1 : s.nrow = nrow) (h2 : s.ncol = ncol) (h : nrow * ncol ≤ 2147483647)
    {a : List F} (ha : a.length < nrow * ncol) : s.setMatrix a = .error .outOfBounds := by
  have hround : ∀ (i j : Nat) (t : RSolver F), i < nrow → j < ncol → ∀ r, (do
      let r ← imul (i : Int) s.ncol
      let k ← iadd r j
      let v ← vget a (toSize k)
      let m ← vset t.mat (toSize k) v
      let w ← vget a (toSize k)
      let mo ← vset t.matOri (toSize k) w
      return { t with mat := m, matOri := mo } : Cxx (RSolver F)) = r →
      (∃ u, r = .ok u ∧ i * ncol + j < a.length) ∨ r = .error .outOfBounds := by
    intro i j t hi hj r hr
    obtain ⟨e1, e2, e3, -⟩ := idx_eq h hi hj
    simp only [h2, e1, e2, e3, bind, Except.bind] at hr
    subst hr
    by_cases hk : i * ncol + j < a.length
    · rw [vget_ok hk]
      simp only [vset]
      split_ifs
      all_goals first | exact .inl ⟨_, rfl, hk⟩ | exact .inr rfl
    · right
      have : vget a (i * ncol + j) = .error .outOfBounds := by
        unfold vget; rw [List.getElem?_eq_none (by omega)]
      rw [this]
  have hno : ∀ t, s.setMatrix a ≠ .ok t := by
    intro t ht
    unfold RSolver.setMatrix at ht
    rw [h1, Int.toNat_natCast] at ht
    have := forN_inv_ok (fun i (_ : RSolver F) => i * ncol ≤ a.length) _ nrow s t (by simp) (by
      intro i t u hi hP hu
      rw [h2, Int.toNat_natCast] at hu
      have := forN_inv_ok (fun j (_ : RSolver F) => i * ncol + j ≤ a.length) _ ncol t u (by simpa using hP) (by
        intro j t u hj hP hu
        rw [← h2] at hu
        rcases hround i j t hi hj _ hu with ⟨_, _, hk⟩ | e
        · omega
        · cases e) hu
      rw [Nat.succ_mul]; exact this) ht
    omega
  rcases forN_inv_or (fun _ => True) (· = .outOfBounds) (fun i (t : RSolver F) => forN s.ncol.toNat t fun j t => do
      let r ← imul (i : Int) s.ncol
      let k ← iadd r j
      let v ← vget a (toSize k)
      let m ← vset t.mat (toSize k) v
      let w ← vget a (toSize k)
      let mo ← vset t.matOri (toSize k) w
      return { t with mat := m, matOri := mo }) s.nrow.toNat s trivial (by
    intro i t hi _
    refine forN_inv_or (fun _ => True) (· = .outOfBounds) _ s.ncol.toNat t trivial ?_
    intro j t hj _
    rcases hround i j t (by omega) (by omega) _ rfl with ⟨u, hu, -⟩ | e
    · exact .inl ⟨u, hu, trivial⟩
    · exact .inr ⟨_, e, rfl⟩) with ⟨t, ht, -⟩ | ⟨e, he, rfl⟩
  · exact absurd ht (hno t)
  · exact he

/-- **C126** too little memory: a right-hand side with fewer than `nrow` numbers is read past its end. -/
theorem C126_short_rhs (s : RSolver F) {b : List F} (hb : (b.length : Int) < s.nrow) : s.setRightHandSide b = .error .outOfBounds := by
  have hround : ∀ (i : Nat) (t : RSolver F) r, (do
      let v ← vget b i
      let x ← vset t.x i v
      let w ← vget b i
      let b' ← vset t.b i w
      return { t with x := x, b := b' } : Cxx (RSolver F)) = r → (∃ u, r = .ok u ∧ i < b.length) ∨ r = .error .outOfBounds := by
    intro i t r hr
    subst hr
    by_cases hk : i < b.length
    · rw [vget_ok hk]
      simp only [vset, bind, Except.bind]
      split_ifs
      all_goals first | exact .inl ⟨_, rfl, hk⟩ | exact .inr rfl
    · right
      have : vget b i = .error .outOfBounds := by
        unfold vget; rw [List.getElem?_eq_none (by omega)]
      rw [this]; rfl
  rcases forN_inv_or (fun _ => True) (· = .outOfBounds) (fun i (t : RSolver F) => do
      let v ← vget b i
      let x ← vset t.x i v
      let w ← vget b i
      let b' ← vset t.b i w
      return { t with x := x, b := b' }) s.nrow.toNat s trivial (by
    intro i t hi _
    rcases hround i t _ rfl with ⟨u, hu, -⟩ | e
    · exact .inl ⟨u, hu, trivial⟩
    · exact .inr ⟨_, e, rfl⟩) with ⟨t, ht, -⟩ | ⟨e, he, rfl⟩
  · have := forN_inv_ok (fun i (_ : RSolver F) => i ≤ b.length) _ s.nrow.toNat s t (by simp) (by
      intro i t u hi hP hu
      rcases hround i t _ hu with ⟨_, _, hk⟩ | e
      · omega
      · cases e) ht
    omega
  · exact he

theorem call_ok_inv {α β : Type} {c : Call' α} {f : α → Call' β} {b : β} (h : (c >>= f) = .ok b) : ∃ a, c = .ok a ∧ f a = .ok b := by
  cases c with
  | error e => cases h
  | ok a => exact ⟨a, rfl, h⟩

/-- **C126** systems without equations or without unknowns: an object is made (also for a negative number of columns if there are no
rows), but after any calls `solve` is undefined, as it takes the address of the first element of a matrix without elements. -/
theorem C126_empty [Zero F] (g : Gels F) (nrow ncol : Int) (hr : inI32 nrow) (hc : inI32 ncol) (h0 : 0 ≤ nrow) (h : nrow * ncol = 0) :
    ∃ s : RSolver F, RSolver.new nrow ncol = .ok s ∧
      ∀ cs t, runSolverCalls g s cs = .ok t → t.solve g = .error .outOfBounds := by
  obtain ⟨s, hs⟩ := (C126_new (F := F) nrow ncol hr hc).1 (by
    unfold newOutcome
    rw [if_neg (by rw [h]; simp [inI32]), if_neg (by rw [h]; omega)])
  refine ⟨s, hs, ?_⟩
  have hinv : s.mat = [] ∧ (s.nrow.toNat = 0 ∨ s.ncol.toNat = 0) := by
    unfold RSolver.new at hs
    rw [imul_eq (by rw [h]; simp [inI32]), h] at hs
    simp only [lift'] at hs
    obtain ⟨p, hp, hs⟩ := call_ok_inv hs
    cases hp
    obtain ⟨m, hm, hs⟩ := call_ok_inv hs
    have hm0 : m = [] := by
      rw [show (0 : Int) = ((0 : Nat) : Int) from rfl, resize_nil_nat (0 : F) (k := 0) (by omega)] at hm
      cases hm; rfl
    obtain ⟨_, -, hs⟩ := call_ok_inv hs
    obtain ⟨_, -, hs⟩ := call_ok_inv hs
    obtain ⟨_, -, hs⟩ := call_ok_inv hs
    obtain ⟨_, -, hs⟩ := call_ok_inv hs
    obtain ⟨_, -, hs⟩ := call_ok_inv hs
    obtain ⟨_, -, hs⟩ := call_ok_inv hs
    obtain ⟨_, -, hs⟩ := call_ok_inv hs
    cases hs
    refine ⟨hm0, ?_⟩
    rcases mul_eq_zero.1 h with e | e <;> simp [e]
  have hsolve : ∀ t : RSolver F, t.mat = [] → t.solve g = .error .outOfBounds := by
    intro t ht
    unfold RSolver.solve vget
    rw [ht]; rfl
  have hrun : ∀ (cs : List (SolverCall F)) (s t : RSolver F), s.mat = [] → (s.nrow.toNat = 0 ∨ s.ncol.toNat = 0) →
      runSolverCalls g s cs = .ok t → t.mat = [] := by
    intro cs
    induction cs with
    | nil => intro s t h1 _ h; cases h; exact h1
    | cons c cs ih =>
      intro s t h1 h2 h
      obtain ⟨u, hu, h⟩ := bind_ok_inv h
      have : u.mat = [] ∧ (u.nrow.toNat = 0 ∨ u.ncol.toNat = 0) := by
        cases c with
        | setMatrix a =>
          have : s.setMatrix a = .ok s := by
            unfold RSolver.setMatrix
            rcases h2 with e | e
            · rw [e]; rfl
            · rw [e]
              exact forFrom_id _ 0 s
          have hu : s.setMatrix a = .ok u := hu
          rw [this] at hu
          cases hu
          exact ⟨h1, h2⟩
        | setRightHandSide b =>
          refine forN_inv_ok (fun _ (u : RSolver F) => u.mat = [] ∧ (u.nrow.toNat = 0 ∨ u.ncol.toNat = 0)) _ _ s u ⟨h1, h2⟩ ?_ hu
          intro i v w _ hP hw
          obtain ⟨_, -, hw⟩ := bind_ok_inv hw
          obtain ⟨_, -, hw⟩ := bind_ok_inv hw
          obtain ⟨_, -, hw⟩ := bind_ok_inv hw
          obtain ⟨_, -, hw⟩ := bind_ok_inv hw
          cases hw
          exact hP
        | solve =>
          have hu : (do let r ← s.solve g; return r.1 : Cxx (RSolver F)) = .ok u := hu
          rw [hsolve s h1] at hu
          cases hu
      exact ih u t this.1 this.2 h
  intro cs t h
  exact hsolve t (hrun cs s t hinv.1 hinv.2 h)

/-! ### Concrete cases -/

/-- The hypotheses of the history theorem are met by a 2 x 2 system with memory longer than needed. -/
example : ∀ c ∈ ([.setMatrix [2, 1, 1, 3, 7], .setRightHandSide [3, 5], .solve] : List (SolverCall ℚ)), c.Enough 2 2 := by
  simp [SolverCall.Enough]
/-- Sizes that overflow, that are refused, and that are taken although they make no sense. -/
example : newOutcome 65536 32768 = .overflow ∧ newOutcome (-1) 3 = .thrown ∧ newOutcome (-2) (-3) = .thrown ∧ newOutcome 0 (-3) = .made ∧
    newOutcome 3 0 = .made := by decide
/-- A matrix with three numbers for a 2 x 2 system. -/
example : ((RSolver.new 2 2 : Call' (RSolver ℚ)).toOption.map fun s => s.setMatrix [1, 2, 3]) = some (.error .outOfBounds) := by decide +kernel
example : ((RSolver.new 0 (-3) : Call' (RSolver ℚ)).toOption.map fun s => (s.mat, s.x, s.nrow, s.ncol)) = some ([], [], 0, -3) := by
  decide +kernel

end Sg.Props
