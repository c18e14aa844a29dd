import Verif.Proof.FindPointRun
import Verif.Props.FindPointRaw
import Verif.Proof.GridsRaw
/-
Refinement of the calls of a cell finder: the error, the Jacobian and one Newton step.
-/
namespace Sg.FindPoint
open Sg.LinearSolve FOps Sg.Conserve Sg.Props

set_option linter.unusedSectionVars false
variable {F : Type} [Zero F] [One F] [Add F] [Sub F] [Mul F] [Div F] [Neg F] [LT F] [DecidableLT F]
  [LE F] [DecidableLE F] [DecidableEq F] [NatCast F] [IntCast F] [FOps F] {n : Nat}

/-- An object with a grid. -/
structure HasGrid (dims : Fin n → Nat) (s : Raw F) : Prop where
  pos : 1 ≤ n
  few : n < 64
  shape : Shape dims s
  sized : Sized n s
  coords : ∀ i : Fin n, (s.coords.getD i []).length = ∏ k, dims k
  slvr : ∃ sl, s.slvr = some sl ∧ SolverOK n sl

/-- A loop over the axes without failing rounds. -/
theorem forN_fold {σ : Type} (g : Fin n → σ → σ) (f : Nat → σ → Cxx σ) (s : σ) (h : ∀ (i : Fin n) s, f i s = .ok (g i s)) :
    forN n s f = .ok ((List.finRange n).foldl (fun s i => g i s) s) := by
  obtain ⟨s', e1, e2⟩ := forN_inv (fun k t => t = ((List.finRange n).take k).foldl (fun s i => g i s) s) f n s (by simp) (by
    intro k t hk ht
    refine ⟨_, h ⟨k, hk⟩ t, ?_⟩
    rw [take_finRange hk, List.foldl_append, ← ht]
    rfl)
  rw [e1, e2, List.take_of_length_le (by simp)]

theorem dims_asFinder {dims : Fin n → Nat} {s : Raw F} (h : Shape dims s) : (asFinder n s).dims = dims := by
  funext i
  simp [asFinder, h.counts i]

theorem coords_get {dims : Fin n → Nat} {s : Raw F} (h : HasGrid dims s) (i : Fin n) :
    vget s.coords i = .ok ((asFinder n s).coords i) := by
  have := i.2
  have h' := h.sized.coords
  rw [vget_ok (by omega)]
  simp [asFinder, List.getElem?_eq_getElem (show (i : Nat) < s.coords.length by omega)]

theorem interp_axis {dims : Fin n → Nat} {s : Raw F} (h : HasGrid dims s) {L : List F} (hL : L.length = n) (i : Fin n) :
    s.interp L ((asFinder n s).coords i) = FindPoint.interp (asFinder n s).dims (vec n L) ((asFinder n s).coords i) := by
  rw [dims_asFinder h.shape]
  exact interp_eq h.shape h.few hL (by rw [show (asFinder n s).coords i = s.coords.getD i [] from rfl, h.coords i]; exact h.shape.tot)

theorem vec_set {L : List F} (hL : L.length = n) (j : Fin n) (x : F) :
    vec n (L.set j x) = fun k => if k = j then x else vec n L k := by
  funext k
  have hk := k.2
  unfold vec
  by_cases hkj : k = j
  · subst hkj; simp [hL, hk]
  · rw [if_neg hkj]
    have : (j : Nat) ≠ k := fun h => hkj (Fin.ext h.symm)
    simp [List.getElem?_set, this]

/-- The position. -/
theorem getPosition_rel {dims : Fin n → Nat} {s : Raw F} (h : HasGrid dims s) :
    Cxx.Rel (fun L v => L.length = n ∧ vec n L = v) s.getPosition (asFinder n s).getPosition := by
  unfold Raw.getPosition Finder.getPosition
  rw [h.shape.len]
  rcases forN_axes (fun k (pos : List F) => pos.length = n ∧ ∀ (i : Fin n), (i : Nat) < k →
      interp (asFinder n s).dims (asFinder n s).dIndices ((asFinder n s).coords i) = .ok (vec n pos i))
    (fun i pos => do
      let c ← vget s.coords i
      let x ← s.interp s.dIndices c
      vset pos i x)
    (fun i => interp (asFinder n s).dims (asFinder n s).dIndices ((asFinder n s).coords i))
    (List.replicate n (0 : F)) ⟨by simp, by intro i hi; omega⟩ (by
      intro k hk pos ⟨h1, h2⟩
      have e1 := coords_get h ⟨k, hk⟩
      have e2 := interp_axis h h.sized.dIndices ⟨k, hk⟩
      have e3 : vec n s.dIndices = (asFinder n s).dIndices := rfl
      rw [e3] at e2
      simp only [e1, e2, bind, Except.bind]
      cases hx : interp (asFinder n s).dims (asFinder n s).dIndices ((asFinder n s).coords ⟨k, hk⟩) with
      | error u => exact .inr ⟨u, rfl, rfl⟩
      | ok x =>
        refine .inl ⟨x, _, rfl, vset_ok (by omega), by simpa using h1, ?_⟩
        intro i hi
        have := vec_set h1 ⟨k, hk⟩ x
        simp only at this
        rw [this]
        dsimp only
        by_cases hik : i = ⟨k, hk⟩
        · rw [if_pos hik, hik, hx]
        · rw [if_neg hik]
          refine h2 i ?_
          have : (i : Nat) ≠ k := fun h => hik (Fin.ext h)
          omega) with ⟨v, L, e1, e2, e3, e4, e5⟩ | ⟨e, e1, e2⟩
  · refine .inl ⟨L, v, e3, e1, e4, ?_⟩
    funext i
    have a := e5 i i.2
    rw [e2 i] at a
    exact (Except.ok.inj a).symm
  · exact .inr ⟨e, e2, e1⟩

/-- The error. -/
theorem getError_eq {dims : Fin n → Nat} {s : Raw F} (h : HasGrid dims s) : s.getError = (asFinder n s).getError := by
  unfold Raw.getError Finder.getError
  rcases getPosition_rel h with ⟨L, v, e1, e2, h1, h2⟩ | ⟨e, e1, e2⟩
  · rw [e1, e2, h.shape.len]
    simp only [bind, Except.bind]
    rw [forN_fold (fun i res => res + (v i - (asFinder n s).targetPoint i) * (v i - (asFinder n s).targetPoint i))]
    · intro i res
      rw [vget_eq_ok.mpr (vec_get h1 i), h2]
      simp only [vget_eq_ok.mpr (vec_get h.sized.targetPoint i)]
      rfl
  · rw [e1, e2]; rfl


theorem foldl_ok {l l' : List F} (hl : l.length = l'.length) : ∀ (iw : List (Int × F)) (a x : F) (a' : F),
    iw.foldlM (fun res e => do let v ← vgetI l e.1; return res + e.2 * v) a = (.ok x : Cxx F) →
    ∃ y, iw.foldlM (fun res e => do let v ← vgetI l' e.1; return res + e.2 * v) a' = (.ok y : Cxx F)
  | [], a, x, a', _ => ⟨a', rfl⟩
  | e :: iw, a, x, a', h => by
    rw [List.foldlM_cons] at h ⊢
    obtain ⟨b, h1, h2⟩ := bind_ok_inv h
    obtain ⟨v, h3, h4⟩ := bind_ok_inv h1
    have : ∃ v', vgetI l' e.1 = .ok v' := by
      unfold vgetI at h3 ⊢
      split_ifs at h3 ⊢ with h0
      rw [vget_eq_ok] at h3
      have := (List.getElem?_eq_some_iff.mp h3).1
      exact ⟨_, vget_ok (by omega)⟩
    obtain ⟨v', e'⟩ := this
    obtain ⟨y, hy⟩ := foldl_ok hl iw b x (a' + e.2 * v') h2
    refine ⟨y, ?_⟩
    rw [e']
    exact hy

/-- Whether a field can be interpolated depends on the length of the array only. -/
theorem interp_len {dims : Fin n → Nat} {d : Fin n → F} {l l' : List F} (hl : l.length = l'.length) {x : F}
    (h : FindPoint.interp dims d l = .ok x) : ∃ y, FindPoint.interp dims d l' = .ok y := by
  unfold FindPoint.interp at h ⊢
  obtain ⟨iw, h1, h2⟩ := bind_ok_inv h
  obtain ⟨y, hy⟩ := foldl_ok hl iw 0 x 0 h2
  refine ⟨y, ?_⟩
  rw [h1]
  exact hy

/-- One entry of the Jacobian. -/
def jacEntry (s : Finder F n) (i j : Fin n) : Cxx F := do
  let xHi ← FindPoint.interp s.dims (indsHi s.dims s.dIndices j) (s.coords i)
  let xLo ← FindPoint.interp s.dims (indsLo s.dIndices j) (s.coords i)
  return (xHi - xLo) / (indsHi s.dims s.dIndices j j - indsLo s.dIndices j j)

theorem top_eq {m : Nat} (h : 1 ≤ m) (h' : m ≤ 2147483647) : ssub m 1 = m - 1 := by unfold ssub; omega

theorem set_set_self {L : List F} (hL : L.length = n) (j : Fin n) (x : F) : (L.set j x).set j (vec n L j) = L := by
  rw [List.set_set]
  apply List.ext_getElem?
  intro k
  rw [List.getElem?_set]
  split_ifs with h1 h2
  · rw [← h1, vec_get hL j]
  · have := j.2; omega
  · rfl

theorem jacRound_eq {dims : Fin n → Nat} {s : Raw F} (h : HasGrid dims s) (i j : Fin n) (w : JacState F) (h1 : w.hi = s.dIndices)
    (h2 : w.lo = s.dIndices) (h3 : w.k < w.jac.length) :
    s.jacRound ((asFinder n s).coords i) j w =
      (jacEntry (asFinder n s) i j).map fun x => { w with jac := w.jac.set w.k x, k := w.k + 1 } := by
  have hd := h.sized.dIndices
  have hj := j.2
  have hD := dims_asFinder h.shape
  unfold Raw.jacRound jacEntry
  rw [h1, h2]
  simp only [vget_eq_ok.mpr (h.shape.counts j), vget_eq_ok.mpr (vec_get hd j), bind, Except.bind, top_eq (h.shape.one j) (h.shape.le j)]
  rw [vset_ok (by omega)]
  dsimp only
  rw [interp_axis h (by simpa using hd), vec_set hd]
  have e1 : indsHi (asFinder n s).dims (asFinder n s).dIndices j = fun k => if k = j then
      (if vec n s.dIndices j + 1 / (1 + 1) ≤ ((dims j - 1 : Nat) : F) then vec n s.dIndices j + 1 / (1 + 1) else ((dims j - 1 : Nat) : F))
      else vec n s.dIndices k := by
    rw [hD]; rfl
  have e2 : indsLo (asFinder n s).dIndices j = fun k => if k = j then
      (if (0 : F) ≤ vec n s.dIndices j - 1 / (1 + 1) then vec n s.dIndices j - 1 / (1 + 1) else 0) else vec n s.dIndices k := rfl
  rw [← e1]
  cases hx : FindPoint.interp (asFinder n s).dims (indsHi (asFinder n s).dims (asFinder n s).dIndices j) ((asFinder n s).coords i) with
  | error u => rfl
  | ok xHi =>
    dsimp only
    rw [vset_ok (by omega)]
    dsimp only
    rw [interp_axis h (by simpa using hd), vec_set hd, ← e2]
    cases hy : FindPoint.interp (asFinder n s).dims (indsLo (asFinder n s).dIndices j) ((asFinder n s).coords i) with
    | error u => rfl
    | ok xLo =>
      dsimp only
      rw [vset_ok h3]
      dsimp only
      rw [vset_ok (by simpa [hd] using hj)]
      dsimp only
      rw [vset_ok (by simpa [hd] using hj), set_set_self hd, set_set_self hd]
      simp only [pure, Except.pure, Except.map, e1, e2, if_true]

/-- Entries of the matrix. -/
def entry (n : Nat) (jac : List F) (i j : Fin n) : F := jac.getD (i * n + j) 0

theorem idx_lt (i j : Fin n) : (i : Nat) * n + j < n * n := by
  have h1 := i.2
  have h2 := j.2
  calc (i : Nat) * n + j < i * n + n := by omega
    _ = (i + 1) * n := by ring
    _ ≤ n * n := Nat.mul_le_mul_right _ h1

theorem idx_inj {i j a b : Fin n} (h : (i : Nat) * n + j = a * n + b) : i = a ∧ j = b := by
  have hn : 0 < n := Nat.pos_of_ne_zero fun h0 => by subst h0; exact i.elim0
  have h1 : ((i : Nat) * n + j) / n = i := by
    rw [mul_comm, Nat.mul_add_div hn, Nat.div_eq_of_lt j.2, add_zero]
  have h2 : ((a : Nat) * n + b) / n = a := by
    rw [mul_comm, Nat.mul_add_div hn, Nat.div_eq_of_lt b.2, add_zero]
  have h3 : (i : Nat) = a := by rw [← h1, ← h2, h]
  refine ⟨Fin.ext h3, Fin.ext ?_⟩
  rw [h3] at h
  omega

theorem entry_set {jac : List F} (hl : jac.length = n * n) (i j : Fin n) (x : F) (a b : Fin n) :
    entry n (jac.set (i * n + j) x) a b = if a = i ∧ b = j then x else entry n jac a b := by
  unfold entry
  rw [List.getD_eq_getElem?_getD, List.getElem?_set]
  by_cases h3 : a = i ∧ b = j
  · have := idx_lt i j
    rw [if_pos (by rw [h3.1, h3.2]), if_pos (by omega), if_pos h3]
    rfl
  · rw [if_neg (fun h => h3 ⟨(idx_inj h).1.symm, (idx_inj h).2.symm⟩), if_neg h3]
    simp

/-- The state of the loops after some rounds. -/
structure JacInv (s : Raw F) (w : JacState F) : Prop where
  hi : w.hi = s.dIndices
  lo : w.lo = s.dIndices
  jac : w.jac.length = n * n
  rhs : w.rhs.length = n

/-- The inner loop. -/
theorem jacRow_eq {dims : Fin n → Nat} {s : Raw F} (h : HasGrid dims s) (i : Fin n) (w : JacState F) (hw : JacInv (n := n) s w)
    (hk : w.k = i * n) :
    (∃ v w', forAxes (jacEntry (asFinder n s) i) = .ok v ∧ forN n w (s.jacRound ((asFinder n s).coords i)) = .ok w' ∧
      JacInv (n := n) s w' ∧ w'.k = (i + 1) * n ∧ w'.rhs = w.rhs ∧
      ∀ a b, entry n w'.jac a b = if a = i then v b else entry n w.jac a b) ∨
    ∃ e, forAxes (jacEntry (asFinder n s) i) = .error e ∧ forN n w (s.jacRound ((asFinder n s).coords i)) = .error e := by
  rcases forN_axes (fun k (t : JacState F) => JacInv (n := n) s t ∧ t.k = i * n + k ∧ t.rhs = w.rhs ∧
      (∀ b : Fin n, (b : Nat) < k → jacEntry (asFinder n s) i b = .ok (entry n t.jac i b)) ∧
      ∀ a b, a ≠ i → entry n t.jac a b = entry n w.jac a b)
    (s.jacRound ((asFinder n s).coords i)) (jacEntry (asFinder n s) i) w
    ⟨hw, by omega, rfl, fun b hb => by omega, fun a b _ => rfl⟩ (by
      intro k hk t ⟨h1, h2, h3, h4, h5⟩
      have hlt := idx_lt i ⟨k, hk⟩
      simp only at hlt
      have hkl : t.k < t.jac.length := by rw [h2, h1.jac]; exact hlt
      have e := jacRound_eq h i ⟨k, hk⟩ t h1.hi h1.lo hkl
      simp only at e
      rw [e]
      cases hx : jacEntry (asFinder n s) i ⟨k, hk⟩ with
      | error u => exact .inr ⟨u, rfl, rfl⟩
      | ok x =>
        refine .inl ⟨x, _, rfl, rfl, ⟨h1.hi, h1.lo, by simpa using h1.jac, h1.rhs⟩, by simp only [h2]; omega, h3, ?_, ?_⟩
        · intro b hb
          have := entry_set h1.jac i ⟨k, hk⟩ x i b
          simp only at this
          simp only [h2]
          rw [this]
          by_cases hc : b = ⟨k, hk⟩
          · rw [if_pos (by simp [hc]), hc, hx]
          · rw [if_neg (by simp [hc])]
            refine h4 b ?_
            have : (b : Nat) ≠ k := fun hb' => hc (Fin.ext hb')
            omega
        · intro a b ha
          have := entry_set h1.jac i ⟨k, hk⟩ x a b
          simp only at this
          simp only [h2]
          rw [this, if_neg (fun hc => ha hc.1)]
          exact h5 a b ha) with ⟨v, w', e1, e2, e3, e4, e5, e6, e7, e8⟩ | ⟨e, e1, e2⟩
  · refine .inl ⟨v, w', e1, e3, e4, by rw [e5]; ring, e6, ?_⟩
    intro a b
    split_ifs with ha
    · subst ha
      have := e7 b b.2
      rw [e2 b] at this
      exact (Except.ok.inj this).symm
    · exact e8 a b ha
  · exact .inr ⟨e, e1, e2⟩

theorem forAxes_first {α : Type} {c : Fin n → Cxx α} (hn : 0 < n) {e : UB} (h : c ⟨0, hn⟩ = .error e) : forAxes c = .error e := by
  cases n with
  | zero => omega
  | succ m =>
    have h' : c 0 = .error e := h
    simp only [forAxes, h']

/-- The right-hand side. -/
def rhsEntry (s : Finder F n) (i : Fin n) : Cxx F := do
  let pos ← FindPoint.interp s.dims s.dIndices (s.coords i)
  return s.targetPoint i - pos

theorem jacobian_unfold (s : Finder F n) : s.computeJacobianAndRHS = (do
    let rhs ← forAxes (rhsEntry s)
    let jac ← forAxes fun i => forAxes (jacEntry s i)
    return (jac, rhs)) := rfl

/-- The Jacobian and the right-hand side. -/
theorem jacobian_rel {dims : Fin n → Nat} {s : Raw F} (h : HasGrid dims s) :
    Cxx.Rel (fun (s' : Raw F) jr => s' = { s with jacMatrix := s'.jacMatrix, rhs := s'.rhs } ∧ s'.jacMatrix.length = n * n ∧
      s'.rhs.length = n ∧ (∀ i j, entry n s'.jacMatrix i j = jr.1 i j) ∧ vec n s'.rhs = jr.2)
      s.computeJacobianAndRHS (asFinder n s).computeJacobianAndRHS := by
  have hn : 0 < n := h.pos
  have hround : ∀ (i : Fin n) (w : JacState F), JacInv (n := n) s w → s.rhsRound i w =
      (rhsEntry (asFinder n s) i >>= fun r => forN n { w with rhs := w.rhs.set i r } (s.jacRound ((asFinder n s).coords i))) := by
    intro i w hw
    have hi := i.2
    unfold Raw.rhsRound rhsEntry
    have e3 : (asFinder n s).dIndices = vec n s.dIndices := rfl
    have e4 : (asFinder n s).targetPoint = vec n s.targetPoint := rfl
    rw [h.shape.len, coords_get h i, e3, e4]
    simp only [bind, Except.bind]
    rw [interp_axis h h.sized.dIndices i]
    cases interp (asFinder n s).dims (vec n s.dIndices) ((asFinder n s).coords i) with
    | error u => rfl
    | ok x =>
      simp only [vget_eq_ok.mpr (vec_get h.sized.targetPoint i), pure, Except.pure]
      rw [vset_ok (by rw [hw.rhs]; exact hi)]
  rw [jacobian_unfold]
  unfold Raw.computeJacobianAndRHS
  rw [h.shape.len]
  have hw0 : JacInv (n := n) s ⟨s.dIndices, s.dIndices, s.jacMatrix, s.rhs, 0⟩ :=
    ⟨rfl, rfl, h.sized.jacMatrix, h.sized.rhs⟩
  cases h0 : rhsEntry (asFinder n s) ⟨0, hn⟩ with
  | error e =>
    refine .inr ⟨e, ?_, ?_⟩
    · obtain ⟨m, rfl⟩ := Nat.exists_eq_succ_of_ne_zero hn.ne'
      have := hround ⟨0, hn⟩ _ hw0
      rw [h0] at this
      simp only [forN, forFrom]
      simp only at this
      rw [this]
      rfl
    · rw [forAxes_first hn h0]
      rfl
  | ok r0 =>
    have hall : ∀ i, ∃ r, rhsEntry (asFinder n s) i = .ok r := by
      intro i
      unfold rhsEntry at h0 ⊢
      obtain ⟨x, h1, -⟩ := bind_ok_inv h0
      obtain ⟨y, hy⟩ := interp_len (l' := (asFinder n s).coords i)
        (show ((asFinder n s).coords ⟨0, hn⟩).length = _ by
          rw [show ((asFinder n s).coords ⟨0, hn⟩).length = _ from h.coords _, show ((asFinder n s).coords i).length = _ from h.coords i])
        h1
      rw [hy]
      exact ⟨_, rfl⟩
    choose r hr using hall
    rw [forAxes_ok _ r hr]
    simp only [bind, Except.bind]
    rcases forN_axes (fun k (t : JacState F) => JacInv (n := n) s t ∧ t.k = k * n ∧ (∀ i : Fin n, (i : Nat) < k → vec n t.rhs i = r i) ∧
        ∀ i : Fin n, (i : Nat) < k → forAxes (jacEntry (asFinder n s) i) = .ok (entry n t.jac i))
      s.rhsRound (fun i => forAxes (jacEntry (asFinder n s) i)) ⟨s.dIndices, s.dIndices, s.jacMatrix, s.rhs, 0⟩
      ⟨hw0, by simp, fun i hi => by omega, fun i hi => by omega⟩ (by
        intro k hk t ⟨h1, h2, h3, h4⟩
        have e := hround ⟨k, hk⟩ t h1
        simp only at e
        rw [e, hr]
        simp only [bind, Except.bind]
        have hw1 : JacInv (n := n) s { t with rhs := t.rhs.set k (r ⟨k, hk⟩) } := ⟨h1.hi, h1.lo, h1.jac, by simpa using h1.rhs⟩
        rcases jacRow_eq h ⟨k, hk⟩ _ hw1 h2 with ⟨v, w', e1, e2, e3, e4, e5, e6⟩ | ⟨u, e1, e2⟩
        · refine .inl ⟨v, w', e1, e2, e3, e4, ?_, ?_⟩
          · intro i hi
            rw [e5]
            have := vec_set h1.rhs ⟨k, hk⟩ (r ⟨k, hk⟩)
            simp only at this
            rw [this]
            dsimp only
            split_ifs with hik
            · rw [hik]
            · refine h3 i ?_
              have : (i : Nat) ≠ k := fun hh => hik (Fin.ext hh)
              omega
          · intro i hi
            by_cases hik : i = ⟨k, hk⟩
            · rw [hik, e1]
              congr 1
              funext b
              rw [e6, if_pos rfl]
            · have : (i : Nat) ≠ k := fun hh => hik (Fin.ext hh)
              rw [h4 i (by omega)]
              congr 1
              funext b
              rw [e6, if_neg hik]
        · exact .inr ⟨u, e1, e2⟩) with ⟨v, w', e1, e2, e3, e4, -, e5, e6⟩ | ⟨e, e1, e2⟩
    · refine .inl ⟨_, _, by rw [e3]; rfl, by rw [e1]; rfl, rfl, e4.jac, e4.rhs, ?_, ?_⟩
      · intro i j
        have := e6 i i.2
        rw [e2 i] at this
        exact congrFun (Except.ok.inj this).symm j
      · funext i
        exact e5 i i.2
    · exact .inr ⟨e, by rw [e2], by rw [e1]⟩


/-- A loop that changes the entries of a vector one after the other. -/
theorem forN_each (u : Fin n → F → F) (f : Nat → List F → Cxx (List F))
    (hf : ∀ (i : Fin n) (L : List F), L.length = n → f i L = .ok (L.set i (u i (vec n L i)))) (L : List F) (hL : L.length = n) :
    ∃ L', forN n L f = .ok L' ∧ L'.length = n ∧ vec n L' = fun i => u i (vec n L i) := by
  obtain ⟨L', e1, e2, e3⟩ := forN_inv (fun k (T : List F) => T.length = n ∧
      ∀ i, vec n T i = if (i : Nat) < k then u i (vec n L i) else vec n L i) f n L ⟨hL, by simp⟩ (by
    intro k T hk ⟨h1, h2⟩
    refine ⟨_, hf ⟨k, hk⟩ T h1, by simpa using h1, ?_⟩
    intro i
    have := vec_set h1 ⟨k, hk⟩ (u ⟨k, hk⟩ (vec n T ⟨k, hk⟩))
    simp only at this
    simp only [this]
    by_cases hik : i = ⟨k, hk⟩
    · rw [if_pos hik, hik, if_pos (by simp), h2, if_neg (by simp)]
    · have : (i : Nat) ≠ k := fun hh => hik (Fin.ext hh)
      rw [if_neg hik, h2]
      by_cases hlt : (i : Nat) < k
      · rw [if_pos hlt, if_pos (by omega)]
      · rw [if_neg hlt, if_neg (by omega)])
  refine ⟨L', e1, e2, ?_⟩
  funext i
  rw [e3, if_pos i.2]

theorem foldl_and {α : Type} (p : α → Bool) : ∀ (l : List α) (b : Bool), l.foldl (fun b i => b && p i) b = (b && l.all p)
  | [], b => by simp
  | a :: l, b => by simp [foldl_and p l, Bool.and_assoc]

theorem bounds_asFinder {dims : Fin n → Nat} {s : Raw F} (h : HasGrid dims s) :
    (asFinder n s).bounds = some (fun i : Fin n => s.xmins.getD i big, fun i : Fin n => s.xmaxs.getD i (-big)) := by
  have h1 := h.sized.xmins
  have h2 := h.pos
  unfold asFinder
  rw [if_neg]
  intro hx
  rw [hx] at h1
  simp at h1
  omega

theorem inside_eq {dims : Fin n → Nat} {s : Raw F} (h : HasGrid dims s) :
    s.inside = .ok ((asFinder n s).inside (fun i => s.xmins.getD i big, fun i => s.xmaxs.getD i (-big))) := by
  unfold Raw.inside Finder.inside
  rw [h.shape.len, forN_fold (fun i b => b && (decide (s.xmins.getD i big - eps100 ≤ (asFinder n s).targetPoint i) &&
    decide ((asFinder n s).targetPoint i ≤ s.xmaxs.getD i (-big) + eps100)))]
  · rw [foldl_and]; simp
  · intro i b
    have h1 := i.2
    have h2 := h.sized.xmins
    have h3 := h.sized.xmaxs
    rw [vget_eq_ok.mpr (vec_get h.sized.targetPoint i), vget_ok (show (i : Nat) < s.xmins.length by omega),
      vget_ok (show (i : Nat) < s.xmaxs.length by omega)]
    simp only [bind, Except.bind, pure, Except.pure, Bool.and_assoc]
    rw [show s.xmins.getD i big = s.xmins[(i : Nat)] by simp [show (i : Nat) < s.xmins.length by omega],
      show s.xmaxs.getD i (-big) = s.xmaxs[(i : Nat)] by simp [show (i : Nat) < s.xmaxs.length by omega]]
    rfl

theorem setMatrixFrom_eq (s : Solver F) (a : List F) (h : s.nrow * s.ncol ≤ a.length) :
    setMatrixFrom s a = s.setMatrix fun k => a.getD k 0 := by
  unfold setMatrixFrom Solver.setMatrix
  refine forN_congr _ _ _ _ fun i t hi => forN_congr _ _ _ _ fun j t hj => ?_
  have : i * s.ncol + j < a.length := by
    refine lt_of_lt_of_le ?_ h
    calc i * s.ncol + j < i * s.ncol + s.ncol := by omega
      _ = (i + 1) * s.ncol := by ring
      _ ≤ s.nrow * s.ncol := Nat.mul_le_mul_right _ hi
  simp only [vget_ok this, List.getD_eq_getElem?_getD, List.getElem?_eq_getElem this, Option.getD_some]
  rfl

theorem setRhsFrom_eq (s : Solver F) (b : List F) (h : s.nrow ≤ b.length) :
    setRhsFrom s b = s.setRightHandSide fun k => b.getD k 0 := by
  unfold setRhsFrom Solver.setRightHandSide
  refine forN_congr _ _ _ _ fun i t hi => ?_
  have : i < b.length := by omega
  simp only [vget_ok this, List.getD_eq_getElem?_getD, List.getElem?_eq_getElem this, Option.getD_some]
  rfl

/-- Only the first entries of the arrays matter. -/
theorem afterSolve_congr (g : Gels F) (s : Solver F) {a a' b b' : Nat → F} (ha : ∀ k < n * n, a k = a' k) (hb : ∀ k < n, b k = b' k) :
    afterSolve g n s a b = afterSolve g n s a' b' := by
  have h1 : (List.range (n * n)).map a = (List.range (n * n)).map a' := List.map_congr_left fun k hk => ha k (List.mem_range.mp hk)
  have h2 : (List.range n).map b = (List.range n).map b' := List.map_congr_left fun k hk => hb k (List.mem_range.mp hk)
  unfold afterSolve stepArgs
  rw [h1, h2]

theorem flatten2_entry {jac : List F} {m : Fin n → Fin n → F} (h : ∀ i j, entry n jac i j = m i j) {k : Nat} (hk : k < n * n) :
    jac.getD k 0 = flatten2 m k := by
  have hn : 0 < n := Nat.pos_of_ne_zero fun h0 => by subst h0; simp at hk
  have h1 : k / n < n := Nat.div_lt_of_lt_mul hk
  have h2 : k % n < n := Nat.mod_lt _ hn
  unfold flatten2
  rw [dif_pos ⟨h1, h2⟩, ← h]
  unfold entry
  simp only [Nat.div_add_mod']

/-- Changes that keep the grid. -/
theorem HasGrid.update {dims : Fin n → Nat} {s : Raw F} (h : HasGrid dims s) {sl : Solver F} (hsl : SolverOK n sl) {t d j r e : List F}
    (ht : t.length = n) (hd : d.length = n) (hj : j.length = n * n) (hr : r.length = n) (it : Int) (o : F) :
    HasGrid dims { s with slvr := some sl, targetPoint := t, dIndices := d, jacMatrix := j, rhs := r, iter := it, errorHistory := e, oldError := o } := by
  obtain ⟨h1, h2, ⟨a1, a2, a3, a4, a5, a6⟩, ⟨b1, b2, b3, b4, b5, b6, b7, b8, b9, b10, b11⟩, h5, h6⟩ := h
  exact ⟨h1, h2, ⟨a1, a2, a3, a4, a5, a6⟩, ⟨b1, b2, b3, b4, b5, b6, b7, ht, hd, hj, hr⟩, h5, sl, rfl, hsl⟩

theorem truncate_eq {dims : Fin n → Nat} {s : Raw F} (h : HasGrid dims s) :
    ∃ L, s.truncateIndices = .ok { s with dIndices := L } ∧ L.length = n ∧
      vec n L = fun i => truncateIndex ((asFinder n s).indexPeriodicity i) ((asFinder n s).dims i) (vec n s.dIndices i) := by
  obtain ⟨L, e1, e2, e3⟩ := forN_each
    (fun i d => truncateIndex ((asFinder n s).indexPeriodicity i) ((asFinder n s).dims i) d)
    (fun i ds => do
      let p ← vget s.indexPeriodicity i
      let d ← vget ds i
      let d := if p ≠ 0 then fmod (fmod d p + p) p else d
      let d := if d < 0 then 0 else d
      let m ← vget s.dims i
      let top : F := ((ssub m 1 : Nat) : F)
      vset ds i (if top < d then top else d)) (by
    intro i L hL
    have hi := i.2
    rw [dims_asFinder h.shape]
    simp only [vget_eq_ok.mpr (vec_get h.sized.indexPeriodicity i), vget_eq_ok.mpr (vec_get hL i), vget_eq_ok.mpr (h.shape.counts i),
      bind, Except.bind, top_eq (h.shape.one i) (h.shape.le i)]
    rw [vset_ok (by omega)]
    rfl) s.dIndices h.sized.dIndices
  refine ⟨L, ?_, e2, e3⟩
  unfold Raw.truncateIndices
  rw [h.shape.len]
  exact (congrArg (· >>= _) e1).trans rfl

/-- The end of a step. -/
theorem finish_eq (s : Raw F) (e : F) :
    ∃ o, Raw.finishStep { s with iter := s.iter + 1 } e =
      .ok (((asFinder n s).finishStep e).1, { s with iter := s.iter + 1, errorHistory := s.errorHistory ++ [e], oldError := o }) ∧
      asFinder n { s with iter := s.iter + 1, errorHistory := s.errorHistory ++ [e], oldError := o } = ((asFinder n s).finishStep e).2 := by
  unfold Raw.finishStep Finder.finishStep
  have a1 : (asFinder n s).oldError = s.oldError := rfl
  have a2 : (asFinder n s).errorHistory = s.errorHistory := rfl
  have a3 : (asFinder n s).iter = s.iter := rfl
  have a4 : (asFinder n s).nitermax = s.nitermax := rfl
  have a5 : (asFinder n s).tolpos = s.tolpos := rfl
  simp only [a1, a2, a3, a4, a5]
  have tail : ∃ o, (if s.nitermax ≤ s.iter + 1 then Except.ok (-1, { s with iter := s.iter + 1, errorHistory := s.errorHistory ++ [e] })
      else if e < s.tolpos then .ok (1, { s with iter := s.iter + 1, errorHistory := s.errorHistory ++ [e] })
      else .ok (0, { s with iter := s.iter + 1, errorHistory := s.errorHistory ++ [e], oldError := e }) : Cxx (Int × Raw F)) =
      .ok ((if s.nitermax ≤ s.iter + 1 then (-1, { asFinder n s with iter := s.iter + 1, errorHistory := s.errorHistory ++ [e] })
      else if e < s.tolpos then (1, { asFinder n s with iter := s.iter + 1, errorHistory := s.errorHistory ++ [e] })
      else (0, { asFinder n s with iter := s.iter + 1, errorHistory := s.errorHistory ++ [e], oldError := e }) : Int × Finder F n).1,
        { s with iter := s.iter + 1, errorHistory := s.errorHistory ++ [e], oldError := o }) ∧
      asFinder n { s with iter := s.iter + 1, errorHistory := s.errorHistory ++ [e], oldError := o } =
      (if s.nitermax ≤ s.iter + 1 then (-1, { asFinder n s with iter := s.iter + 1, errorHistory := s.errorHistory ++ [e] })
      else if e < s.tolpos then (1, { asFinder n s with iter := s.iter + 1, errorHistory := s.errorHistory ++ [e] })
      else (0, { asFinder n s with iter := s.iter + 1, errorHistory := s.errorHistory ++ [e], oldError := e }) : Int × Finder F n).2 := by
    split_ifs
    · exact ⟨s.oldError, rfl, rfl⟩
    · exact ⟨s.oldError, rfl, rfl⟩
    · exact ⟨e, rfl, rfl⟩
  by_cases h1 : s.oldError + eps100 < e
  · simp only [h1, true_and, if_true]
    by_cases h2 : 3 ≤ (s.errorHistory ++ [e]).length
    · have h3 : (s.errorHistory ++ [e]).length - 3 < (s.errorHistory ++ [e]).length := by omega
      simp only [ge_iff_le, if_true, h2, true_and, vget_ok h3, bind, Except.bind, pure, Except.pure, decide_eq_true_eq]
      rw [List.getD_eq_getElem?_getD, List.getElem?_eq_getElem h3, Option.getD_some]
      by_cases h4 : (s.errorHistory ++ [e])[(s.errorHistory ++ [e]).length - 3] + eps100 < e
      · simp only [if_pos h4]
        exact ⟨s.oldError, rfl, rfl⟩
      · simp only [if_neg h4]
        exact tail
    · simp only [ge_iff_le, h2, false_and, if_false, bind, Except.bind, pure, Except.pure, Bool.false_eq_true]
      exact tail
  · simp only [h1, false_and, if_false, bind, Except.bind, pure, Except.pure, Bool.false_eq_true, ge_iff_le]
    exact tail

/-- One Newton step. -/
theorem next_rel (g : Gels F) (hg : KeepsSizes g) {dims : Fin n → Nat} {s : Raw F} (h : HasGrid dims s) (hi : -2147483649 ≤ s.iter)
    (hi' : s.iter < 2147483647) :
    Cxx.Rel (fun a b => a.1 = b.1 ∧ HasGrid dims a.2 ∧ asFinder n a.2 = b.2 ∧ (a.2.iter = s.iter + 1 ∨ a.2 = s)) (s.next g) ((asFinder n s).next g) := by
  obtain ⟨sl, hsl, hok⟩ := h.slvr
  rw [next_eq g hg h.pos (asFinder n s) _ (bounds_asFinder h) sl hsl hok]
  unfold Raw.next
  rw [inside_eq h]
  simp only [bind, Except.bind]
  cases hin : (asFinder n s).inside (fun i => s.xmins.getD i big, fun i => s.xmaxs.getD i (-big)) with
  | false => exact .inl ⟨_, _, rfl, by rw [if_pos rfl], rfl, h, rfl, .inr rfl⟩
  | true =>
    simp only [Bool.not_true, Bool.false_eq_true, if_false, Bool.true_eq_false]
    rcases jacobian_rel h with ⟨s1, jr, e1, e2, h1, h2, h3, h4, h5⟩ | ⟨e, e1, e2⟩
    · rw [e1, e2]
      have hsl1 : s1.slvr = some sl := by rw [h1]; exact hsl
      have hdims1 : s1.dims.length = n := by rw [h1]; exact h.shape.len
      have hd1 : s1.dIndices = s.dIndices := by rw [h1]
      have hit1 : s1.iter = s.iter := by rw [h1]
      simp only [hsl1, hdims1, hd1]
      rw [setMatrixFrom_eq _ _ (by rw [hok.nrow, hok.ncol, h2])]
      obtain ⟨s2, f1, f1'⟩ : ∃ s2, sl.setMatrix (fun k => s1.jacMatrix.getD k 0) = .ok s2 ∧ s2.nrow = n :=
        ⟨_, setMatrix_ok sl hok.wf _, hok.nrow⟩
      have hstep := solver_step (α := Solver F × Int) g h.pos sl hok (fun k => s1.jacMatrix.getD k 0) (fun k => s1.rhs.getD k 0)
        (fun a b => .ok (a, b))
      rw [f1] at hstep
      obtain ⟨s3, f2, hstep⟩ := bind_ok_inv (show (s2.setRightHandSide (fun k => s1.rhs.getD k 0) >>= _) = _ from hstep)
      obtain ⟨s4, f3, hstep⟩ := bind_ok_inv hstep
      rw [f1]
      dsimp only
      rw [setRhsFrom_eq _ _ (by rw [f1', h3]), f2]
      dsimp only
      have f4 : s4 = (afterSolve g n sl (flatten2 jr.1) (flatten1 jr.2), s4.2) := by
        rw [afterSolve_congr g sl (a := flatten2 jr.1) (a' := fun k => s1.jacMatrix.getD k 0) (b := flatten1 jr.2)
          (b' := fun k => s1.rhs.getD k 0) (fun k hk => (flatten2_entry h4 hk).symm) (fun k hk => by
            unfold flatten1; rw [dif_pos hk, ← h5]; rfl)]
        exact Prod.ext (Prod.mk.inj (Except.ok.inj hstep)).1 rfl
      rw [f3, f4]
      dsimp only
      set sv := afterSolve g n sl (flatten2 jr.1) (flatten1 jr.2) with hsv
      have hsvok : SolverOK n sv := afterSolve_ok g hg sl hok _ _
      have hlen : sv.x.length = n := by
        show (g _).b.length = n
        rw [(hg _).2]; simp [stepArgs]
      obtain ⟨L, l1, l2, l3⟩ := forN_each (fun i d => d + solution g jr.1 jr.2 i)
        (fun i ds => do
          let x ← vget sv.getSolution i
          let d ← vget ds i
          vset ds i (d + x)) (by
        intro i L hL
        have hi := i.2
        have : vget sv.getSolution i = .ok (solution g jr.1 jr.2 i) := vget_eq_ok.mpr (vec_get hlen i)
        simp only [this, vget_eq_ok.mpr (vec_get hL i), bind, Except.bind]
        rw [vset_ok (by omega)]) s.dIndices h.sized.dIndices
      simp only [bind, Except.bind] at l1
      rw [l1]
      dsimp only
      have hg2 : HasGrid dims { s1 with slvr := some sv, dIndices := L } := by
        rw [h1]
        exact h.update (t := s.targetPoint) (d := L) (j := s1.jacMatrix) (r := s1.rhs) (e := s.errorHistory) hsvok h.sized.targetPoint l2 h2 h3 s.iter s.oldError
      obtain ⟨L2, t1, t2, t3⟩ := truncate_eq hg2
      rw [t1]
      dsimp only
      have hiter : iadd s1.iter 1 = .ok (s.iter + 1) := by
        rw [hit1]; unfold iadd chk
        rw [if_pos (by unfold inI32; omega)]
      rw [hiter]
      dsimp only
      have hg3 : HasGrid dims { s1 with slvr := some sv, dIndices := L2, iter := s.iter + 1 } := by
        rw [h1]
        exact h.update (t := s.targetPoint) (d := L2) (j := s1.jacMatrix) (r := s1.rhs) (e := s.errorHistory) hsvok h.sized.targetPoint t2 h2 h3 (s.iter + 1) s.oldError
      rw [getError_eq hg3]
      have hmoved : vec n L2 = (asFinder n s).moved g jr.1 jr.2 := by
        rw [t3, l3, h1]
        rfl
      have hf : asFinder n { s1 with slvr := some sv, dIndices := L2 } =
          { asFinder n s with slvr := some sv, dIndices := (asFinder n s).moved g jr.1 jr.2 } := by
        rw [← hmoved, h1]
        rfl
      have hge : Finder.getError (asFinder n { s1 with slvr := some sv, dIndices := L2, iter := s.iter + 1 }) =
          Finder.getError { asFinder n s with slvr := some sv, dIndices := (asFinder n s).moved g jr.1 jr.2 } := by
        rw [← hf]; rfl
      rw [hge]
      cases hE : Finder.getError { asFinder n s with slvr := some sv, dIndices := (asFinder n s).moved g jr.1 jr.2 } with
      | error e => exact .inr ⟨e, rfl, rfl⟩
      | ok e =>
        dsimp only
        obtain ⟨o, o1, o2⟩ := finish_eq (n := n) { s1 with slvr := some sv, dIndices := L2 } e
        rw [hf] at o1 o2
        simp only [hit1] at o1
        refine .inl ⟨_, _, o1, rfl, rfl, ?_, ?_, .inl rfl⟩
        · rw [h1]
          exact h.update (t := s.targetPoint) (d := L2) (j := s1.jacMatrix) (r := s1.rhs) (e := s.errorHistory ++ [e]) hsvok h.sized.targetPoint t2 h2 h3 (s.iter + 1) o
        · rw [← o2]
          simp only [hit1]
    · exact .inr ⟨e, by rw [e1], by rw [e2]⟩

end Sg.FindPoint
