import Verif.Proof.FindPointRun2
import Verif.Props.NodeInterp
/-
Property C129: the calls of a cell finder on the vectors of the object, with the integers and pointers of the interface.
-/
namespace Sg.Props
open Sg Sg.FindPoint Sg.LinearSolve

set_option linter.unusedSectionVars false
variable {F : Type} [Zero F] [One F] [Add F] [Sub F] [Mul F] [Div F] [Neg F] [LT F] [DecidableLT F]
  [LE F] [DecidableLE F] [DecidableEq F] [NatCast F] [IntCast F] [FOps F] {n : Nat}

/-- A call with the memory behind the pointers. -/
inductive FinderCall (F : Type)
  | setGrid (ndims : Int) (dims periodicity : List Int) (coords : List (List F))
  | reset (dIndices target : List F)
  | next

/-- A sequence of calls on an object with vectors: the codes of `next` and the object. -/
def runFinderCalls (g : Gels F) : Raw F → List (FinderCall F) → Call' (List Int × Raw F)
  | s, [] => .ok ([], s)
  | s, .setGrid ndims dims per coords :: cs => do
    let s ← s.setGrid ndims dims per coords
    runFinderCalls g s cs
  | s, .reset d t :: cs => do
    let s ← lift' (s.reset d t)
    runFinderCalls g s cs
  | s, .next :: cs => do
    let r ← lift' (s.next g)
    let t ← runFinderCalls g r.2 cs
    return (r.1 :: t.1, t.2)

/-- The same calls in the model with functions of the axis, with the codes of `next`. -/
def runCodes (g : Gels F) : Finder F n → List (Call F n) → Cxx (List Int × Finder F n)
  | s, [] => .ok ([], s)
  | s, .setGrid dims per coords :: cs => runCodes g (s.setGrid dims per coords) cs
  | s, .reset d t :: cs => runCodes g (s.reset d t) cs
  | s, .next :: cs => do
    let r ← s.next g
    let t ← runCodes g r.2 cs
    return (r.1 :: t.1, t.2)

/-- `runCodes` is `runCalls` (properties C31 to C36) with the codes. -/
theorem runCodes_calls (g : Gels F) : ∀ (cs : List (Call F n)) (s : Finder F n),
    runCalls g s cs = (runCodes g s cs).map Prod.snd
  | [], s => rfl
  | .setGrid dims per coords :: cs, s => runCodes_calls g cs (s.setGrid dims per coords)
  | .reset d t :: cs, s => runCodes_calls g cs (s.reset d t)
  | .next :: cs, s => by
    simp only [runCalls, runCodes, Call.exec, bind, Except.bind, pure, Except.pure]
    cases s.next g with
    | error e => rfl
    | ok r =>
      dsimp only
      rw [runCodes_calls g cs r.2]
      cases runCodes g r.2 cs <;> rfl

/-- The first `n` numbers in memory. -/
def firstOf (n : Nat) (l : List F) : Fin n → F := fun i => l.getD i 0

/-- A call with memory that holds what the call needs. -/
inductive Means : Call F n → FinderCall F → Prop
  | setGrid {dims : Fin n → Nat} {per : Fin n → Int} {coords : Fin n → Nat → F} {D P : List Int} {C : List (List F)} :
      Passed dims per coords D P C → (∀ i, 1 ≤ dims i) → ∏ i, dims i ≤ 2147483647 →
      Means (.setGrid dims per coords) (.setGrid (n : Int) D P C)
  | reset {d t : List F} : n ≤ d.length → n ≤ t.length → Means (.reset (firstOf n d) (firstOf n t)) (.reset d t)
  | next : Means .next .next

/-- An object on which a grid was set. -/
theorem setGrid_hasGrid (hcast : ∀ k : Nat, ((k : Int) : F) = (k : F)) {m : Nat} {s : Raw F} (hs : Sized m s) (hn : 0 < n)
    (hn' : n < 64) {dims : Fin n → Nat} {per : Fin n → Int} {coords : Fin n → Nat → F} {D P : List Int} {C : List (List F)}
    (hp : Passed dims per coords D P C) (h1 : ∀ i, 1 ≤ dims i) (htot : ∏ i, dims i ≤ 2147483647) :
    ∃ s', s.setGrid (n : Int) D P C = .ok s' ∧ HasGrid dims s' ∧ asFinder n s' = (asFinder n s).setGrid dims per coords := by
  obtain ⟨s', e, hsz, hf, hpd⟩ := C104_setGrid hcast hs hn (by omega) hp h1 htot
  have hd : ∀ i : Fin n, s'.dims.getD i 0 = dims i := fun i => congrFun (congrArg Finder.dims hf) i
  have hc : ∀ i : Fin n, s'.coords.getD i [] = (List.range (∏ k, dims k)).map (coords i) := fun i => congrFun (congrArg Finder.coords hf) i
  refine ⟨s', e, ⟨hn, hn', ⟨hsz.dims, ?_, ?_, fun i => (hpd i).2, h1, htot⟩, hsz, ?_, LinearSolve.new n n, congrArg Finder.slvr hf,
    solverOK_new n⟩, hf⟩
  · intro i
    have h2 := i.2
    have h3 := hsz.dims
    rw [← hd i]
    simp [List.getElem?_eq_getElem (show (i : Nat) < s'.dims.length by omega)]
  · intro i
    rw [(hpd i).1, prodDims_eq_drop]
  · intro i
    rw [hc i]; simp

/-- `reset` with memory that is long enough. -/
theorem reset_hasGrid {dims : Fin n → Nat} {s : Raw F} (h : HasGrid dims s) {d t : List F} (hd : n ≤ d.length) (ht : n ≤ t.length) :
    ∃ s', s.reset d t = .ok s' ∧ HasGrid dims s' ∧ asFinder n s' = (asFinder n s).reset (firstOf n d) (firstOf n t) ∧ s'.iter = 0 := by
  obtain ⟨s1, e1, ⟨L, T, rfl, l1, l2, l3, l4⟩⟩ := forN_inv (fun k (x : Raw F) => ∃ L T : List F, x = { s with dIndices := L, targetPoint := T } ∧
      L.length = n ∧ T.length = n ∧ (∀ i : Fin n, (i : Nat) < k → vec n L i = firstOf n d i) ∧
      (∀ i : Fin n, (i : Nat) < k → vec n T i = firstOf n t i))
    (fun i s => do
      let a ← vget d i
      let ds ← vset s.dIndices i a
      let b ← vget t i
      let ts ← vset s.targetPoint i b
      return { s with dIndices := ds, targetPoint := ts }) n s
    ⟨s.dIndices, s.targetPoint, rfl, h.sized.dIndices, h.sized.targetPoint, fun i hi => by omega, fun i hi => by omega⟩ (by
      rintro k x hk ⟨L, T, rfl, l1, l2, l3, l4⟩
      simp only [vget_ok (show k < d.length by omega), vget_ok (show k < t.length by omega), bind, Except.bind]
      rw [vset_ok (by omega)]
      dsimp only
      rw [vset_ok (by omega)]
      refine ⟨_, rfl, L.set k d[k], T.set k t[k], rfl, by simpa using l1, by simpa using l2, ?_, ?_⟩
      · intro i hi
        have := vec_set l1 ⟨k, hk⟩ d[k]
        simp only at this
        rw [this]
        dsimp only
        split_ifs with hik
        · subst hik
          simp [firstOf, show k < d.length by omega]
        · have : (i : Nat) ≠ k := fun hh => hik (Fin.ext hh)
          exact l3 i (by omega)
      · intro i hi
        have := vec_set l2 ⟨k, hk⟩ t[k]
        simp only at this
        rw [this]
        dsimp only
        split_ifs with hik
        · subst hik
          simp [firstOf, show k < t.length by omega]
        · have : (i : Nat) ≠ k := fun hh => hik (Fin.ext hh)
          exact l4 i (by omega))
  obtain ⟨sl, hsl, hok⟩ := h.slvr
  refine ⟨{ s with dIndices := L, targetPoint := T, iter := 0, errorHistory := [] }, ?_, ?_, ?_, rfl⟩
  · unfold Raw.reset
    rw [h.shape.len]
    exact (congrArg (· >>= _) e1).trans rfl
  · have := h.update (t := T) (d := L) (j := s.jacMatrix) (r := s.rhs) (e := []) hok l2 l1 h.sized.jacMatrix h.sized.rhs 0 s.oldError
    rw [← hsl] at this
    exact this
  · have e3 : vec n L = firstOf n d := funext fun i => l3 i i.2
    have e4 : vec n T = firstOf n t := funext fun i => l4 i i.2
    rw [← e3, ← e4]
    rfl

/-- Calls on an object with a grid. -/
theorem run_rel (hcast : ∀ k : Nat, ((k : Int) : F) = (k : F)) (g : Gels F) (hg : KeepsSizes g) (hn : 0 < n) (hn' : n < 64) :
    ∀ (cs : List (Call F n)) (rs : List (FinderCall F)), List.Forall₂ Means cs rs → ∀ (dims : Fin n → Nat) (s : Raw F), HasGrid dims s →
      0 ≤ s.iter → s.iter + rs.length ≤ 2147483647 →
      (∃ k s', runFinderCalls g s rs = .ok (k, s') ∧ (∃ dims', HasGrid (n := n) dims' s') ∧ runCodes g (asFinder n s) cs = .ok (k, asFinder n s')) ∨
        ∃ e, runFinderCalls g s rs = .error (.undefined e) ∧ runCodes g (asFinder n s) cs = .error e
  | [], _, .nil, dims, s, h, _, _ => .inl ⟨[], s, rfl, ⟨dims, h⟩, rfl⟩
  | _ :: cs, _ :: rs, .cons hm hr, dims, s, h, h0, hle => by
    cases hm with
    | setGrid hp h1 htot =>
      obtain ⟨s', e1, e2, e3⟩ := setGrid_hasGrid hcast h.sized hn hn' hp h1 htot
      have hi : s'.iter = s.iter := congrArg Finder.iter e3
      simp only [runFinderCalls, runCodes, bind, Except.bind, e1]
      rw [← e3]
      exact run_rel hcast g hg hn hn' cs rs hr _ s' e2 (by omega) (by simp at hle; omega)
    | reset hd ht =>
      obtain ⟨s', e1, e2, e3, e4⟩ := reset_hasGrid h hd ht
      simp only [runFinderCalls, runCodes, bind, Except.bind, e1, lift']
      rw [← e3]
      exact run_rel hcast g hg hn hn' cs rs hr _ s' e2 (by omega) (by simp at hle; omega)
    | next =>
      simp only [runFinderCalls, runCodes, bind, Except.bind]
      simp only [List.length_cons, Nat.cast_add, Nat.cast_one] at hle
      rcases next_rel g hg h (by omega) (by omega) with ⟨⟨c, s'⟩, ⟨c', f'⟩, e1, e2, e3, e4, e5, e6⟩ | ⟨e, e1, e2⟩
      · simp only at e3 e4 e5 e6
        subst e3 e5
        rw [e1, e2]
        simp only [lift']
        have hi : 0 ≤ s'.iter ∧ s'.iter + rs.length ≤ 2147483647 := by
          rcases e6 with e6 | e6
          · omega
          · rw [e6]; omega
        rcases run_rel hcast g hg hn hn' cs rs hr _ s' e4 hi.1 hi.2 with ⟨k, s'', a1, a2, a3⟩ | ⟨e, a1, a2⟩
        · rw [a1, a3]
          exact .inl ⟨c :: k, s'', rfl, a2, rfl⟩
        · rw [a1, a2]
          exact .inr ⟨e, rfl, rfl⟩
      · rw [e1, e2]
        exact .inr ⟨e, rfl, rfl⟩

/-- **C129.** Setting a grid of fewer than 64 axes on an object, whatever grids it had before, and then any calls of `setGrid` (with
the same number of axes), `reset` and `next` on memory that holds what the calls need: the calls on the vectors of the object, with
`size_t` and `int` arithmetic and arrays changed in place, return the codes and leave the object that the model with functions of the
axis has; they are undefined exactly when that model says so, for the same reason.  All the properties of the Newton search hold for
the object with vectors.  The counter of steps is an `int`, so the number of calls is limited. -/
theorem C129_history (hcast : ∀ k : Nat, ((k : Int) : F) = (k : F)) (g : Gels F) (hg : KeepsSizes g) {m : Nat} {s : Raw F}
    (hs : Sized m s) (hit : 0 ≤ s.iter) (hn : 0 < n) (hn' : n < 64) {dims : Fin n → Nat} {per : Fin n → Int} {coords : Fin n → Nat → F}
    {D P : List Int} {C : List (List F)} (hp : Passed dims per coords D P C) (h1 : ∀ i, 1 ≤ dims i) (htot : ∏ i, dims i ≤ 2147483647)
    {cs : List (Call F n)} {rs : List (FinderCall F)} (hc : List.Forall₂ Means cs rs) (hle : s.iter + rs.length ≤ 2147483647) :
    (∃ k s', runFinderCalls g s (.setGrid (n : Int) D P C :: rs) = .ok (k, s') ∧ (∃ dims', HasGrid (n := n) dims' s') ∧
      runCodes g (asFinder n s) (.setGrid dims per coords :: cs) = .ok (k, asFinder n s')) ∨
    ∃ e, runFinderCalls g s (.setGrid (n : Int) D P C :: rs) = .error (.undefined e) ∧
      runCodes g (asFinder n s) (.setGrid dims per coords :: cs) = .error e := by
  obtain ⟨s', e1, e2, e3⟩ := setGrid_hasGrid hcast hs hn hn' hp h1 htot
  have hi : s'.iter = s.iter := congrArg Finder.iter e3
  simp only [runFinderCalls, runCodes, bind, Except.bind, e1]
  rw [← e3]
  rcases run_rel hcast g hg hn hn' cs rs hc dims s' e2 (by omega) (by omega) with ⟨k, s'', a1, ⟨d, a2⟩, a3⟩ | ⟨e, a1, a2⟩
  · exact .inl ⟨k, s'', a1, ⟨d, a2⟩, a3⟩
  · exact .inr ⟨e, a1, a2⟩


/-- The vector as functions of the axis: an array of the caller after a copy. -/
theorem copyOut_ok {v mem : List F} (h : v.length ≤ mem.length) : copyOut v mem = .ok (v ++ mem.drop v.length) := by
  obtain ⟨m', e1, e2, e3⟩ := forN_inv (fun k (t : List F) => t.length = mem.length ∧
      ∀ i, t[i]? = if i < k then v[i]? else mem[i]?)
    (fun i mem => do let x ← vget v i; vset mem i x) v.length mem ⟨rfl, by simp⟩ (by
      intro k t hk ⟨h1, h2⟩
      simp only [vget_ok hk, bind, Except.bind]
      rw [vset_ok (by omega)]
      refine ⟨_, rfl, by simpa using h1, ?_⟩
      intro i
      rw [List.getElem?_set]
      by_cases hik : k = i
      · subst hik
        rw [if_pos rfl, if_pos (by omega), if_pos (by omega), List.getElem?_eq_getElem hk]
      · rw [if_neg hik, h2 i]
        by_cases hlt : i < k
        · rw [if_pos hlt, if_pos (by omega)]
        · rw [if_neg hlt, if_neg (by omega)])
  unfold copyOut
  rw [e1]
  congr 1
  apply List.ext_getElem?
  intro i
  rw [e3]
  by_cases hi : i < v.length
  · rw [if_pos hi, List.getElem?_append_left hi]
  · rw [if_neg hi, List.getElem?_append_right (by omega), List.getElem?_drop]
    congr 1
    omega

theorem copyOut_short {v mem : List F} (h : mem.length < v.length) : copyOut v mem = .error .outOfBounds := by
  rcases forN_cond (fun _ (t : List F) => t.length = mem.length) (fun k => k < mem.length) .outOfBounds
    (fun i mem => do let x ← vget v i; vset mem i x) v.length mem rfl (by
      intro k t hk h1
      simp only [vget_ok hk, bind, Except.bind]
      by_cases hk' : k < mem.length
      · exact .inl ⟨hk', _, vset_ok (by omega), by simpa using h1⟩
      · refine .inr ⟨hk', ?_⟩
        unfold vset
        rw [if_neg (by omega)]) with ⟨h1, -⟩ | ⟨-, h2⟩
  · exact absurd (h1 mem.length h) (lt_irrefl _)
  · exact h2

/-- **C129** queries.  On an object with a grid of fewer than 64 axes, after any calls as above: the position and the error are those
of the model (undefined for the same reason), the corners of the domain are its bounds, and through the C interface the first numbers
in the memory of the caller become the position or the indices while the rest stays; memory with fewer numbers is written past its
end. -/
theorem C129_queries {dims : Fin n → Nat} {s : Raw F} (h : HasGrid dims s) :
    s.getError = (asFinder n s).getError ∧
    Cxx.Rel (fun L v => L.length = n ∧ firstOf n L = v) s.getPosition (asFinder n s).getPosition ∧
    (∃ lo hi, s.getSrcDomain = .ok (lo, hi) ∧ (asFinder n s).bounds = some (fun i : Fin n => lo.getD i FOps.big, fun i : Fin n => hi.getD i (-FOps.big))) ∧
    (∀ mem : List F, n ≤ mem.length → ∃ L, s.getIndicesC mem = .ok (L ++ mem.drop n) ∧ L.length = n ∧ firstOf n L = (asFinder n s).dIndices) ∧
    (∀ mem : List F, n ≤ mem.length → Cxx.Rel (fun out v => ∃ L, out = L ++ mem.drop n ∧ L.length = n ∧ firstOf n L = v)
      (s.getPositionC mem) (asFinder n s).getPosition) ∧
    (∀ mem : List F, mem.length < n → s.getIndicesC mem = .error .outOfBounds ∧ ∀ out, s.getPositionC mem ≠ .ok out) := by
  have hpos := getPosition_rel h
  have hd := h.sized.dIndices
  refine ⟨getError_eq h, hpos, ?_, ?_, ?_, ?_⟩
  · refine ⟨s.xmins, s.xmaxs, ?_, bounds_asFinder h⟩
    have h1 := h.sized.xmins
    have h2 := h.sized.xmaxs
    have h3 := h.pos
    unfold Raw.getSrcDomain
    rw [if_neg]
    rintro (hx | hx)
    · rw [hx] at h1; simp at h1; omega
    · rw [hx] at h2; simp at h2; omega
  · intro mem hm
    refine ⟨s.dIndices, ?_, hd, rfl⟩
    unfold Raw.getIndicesC
    rw [copyOut_ok (by omega), hd]
  · intro mem hm
    unfold Raw.getPositionC
    rcases hpos with ⟨L, v, e1, e2, h1, h2⟩ | ⟨e, e1, e2⟩
    · refine .inl ⟨_, v, ?_, e2, L, rfl, h1, h2⟩
      rw [e1]
      show copyOut L mem = _
      rw [copyOut_ok (by omega), h1]
    · exact .inr ⟨e, by rw [e1]; rfl, e2⟩
  · intro mem hm
    refine ⟨copyOut_short (by omega), ?_⟩
    intro out ho
    unfold Raw.getPositionC at ho
    obtain ⟨L, e1, e2⟩ := bind_ok_inv ho
    rcases hpos with ⟨L', v, a1, -, a2, -⟩ | ⟨e, a1, -⟩
    · rw [a1] at e1
      cases e1
      rw [copyOut_short (by omega)] at e2
      cases e2
    · rw [a1] at e1; cases e1

/-- **C129** memory: `reset` with memory of fewer numbers than axes reads past its end. -/
theorem C129_short_reset {dims : Fin n → Nat} {s : Raw F} (h : HasGrid dims s) {d t : List F} (hm : d.length < n ∨ t.length < n) :
    s.reset d t = .error .outOfBounds := by
  have hd := h.sized.dIndices
  have ht := h.sized.targetPoint
  rcases forN_cond (fun _ (x : Raw F) => x.dIndices.length = n ∧ x.targetPoint.length = n) (fun k => k < d.length ∧ k < t.length) .outOfBounds
    (fun i (s : Raw F) => do
      let a ← vget d i
      let ds ← vset s.dIndices i a
      let b ← vget t i
      let ts ← vset s.targetPoint i b
      return { s with dIndices := ds, targetPoint := ts }) n s ⟨hd, ht⟩ (by
      rintro k x hk ⟨h1, h2⟩
      by_cases hkd : k < d.length
      · simp only [vget_ok hkd, bind, Except.bind]
        rw [vset_ok (by omega)]
        dsimp only
        by_cases hkt : k < t.length
        · simp only [vget_ok hkt]
          rw [vset_ok (by omega)]
          exact .inl ⟨⟨hkd, hkt⟩, _, rfl, by simpa using h1, by simpa using h2⟩
        · refine .inr ⟨fun hc => hkt hc.2, ?_⟩
          simp only [vget, List.getElem?_eq_none (Nat.le_of_not_lt hkt)]
      · refine .inr ⟨fun hc => hkd hc.1, ?_⟩
        simp only [vget, List.getElem?_eq_none (Nat.le_of_not_lt hkd), bind, Except.bind]) with ⟨h1, -⟩ | ⟨-, h2⟩
  · rcases hm with hm | hm
    · exact absurd (h1 _ hm).1 (lt_irrefl _)
    · exact absurd (h1 _ hm).2 (lt_irrefl _)
  · unfold Raw.reset
    rw [h.shape.len]
    exact (congrArg (· >>= _) h2).trans rfl

/-- **C129** before the first grid: `next` dereferences a null pointer; the position has no coordinates, the error is that of no
coordinates, `reset` touches no memory and the corners of the domain are undefined. -/
theorem C129_no_grid (g : Gels F) (nitermax : Int) (tolpos : F) :
    (Raw.new nitermax tolpos : Raw F).next g = .error .nullDeref ∧ (Raw.new nitermax tolpos : Raw F).getPosition = .ok [] ∧
    (Raw.new nitermax tolpos : Raw F).getError = .ok (FOps.sqrt 0) ∧
    (∀ d t, (Raw.new nitermax tolpos : Raw F).reset d t = .ok (Raw.new nitermax tolpos)) ∧
    (Raw.new nitermax tolpos : Raw F).getSrcDomain = .error .badIterator :=
  ⟨rfl, rfl, rfl, fun _ _ => rfl, rfl⟩

/-- **C129** many axes: with 64 axes or more (a grid with one node along most of them) the number of corners of a cell does not fit the
type of the counter: the position, the error and every `next` for a target inside the domain are undefined. -/
theorem C129_many_axes (g : Gels F) {s : Raw F} (hs : 64 ≤ s.dims.length) (hc : s.coords.length = s.dims.length) :
    s.getPosition = .error .badCast ∧ s.getError = .error .badCast ∧ ∀ r, s.next g = .ok r → r = (-3, s) := by
  have hint : ∀ L c : List F, s.interp L c = .error .badCast := by
    intro L c
    unfold Raw.interp Raw.getSrcIndicesAndWeights
    rw [show pow2 s.dims.length = .error .badCast by unfold pow2; rw [if_neg (by omega)]]
    rfl
  obtain ⟨m, hm⟩ := Nat.exists_eq_succ_of_ne_zero (show s.dims.length ≠ 0 by omega)
  have hc0 : ∃ c, vget s.coords 0 = .ok c := ⟨_, vget_ok (by omega)⟩
  obtain ⟨c, hc0⟩ := hc0
  have h1 : s.getPosition = .error .badCast := by
    unfold Raw.getPosition
    rw [hm]
    simp only [forN, forFrom, hc0, hint, bind, Except.bind]
  refine ⟨h1, by unfold Raw.getError; rw [h1]; rfl, ?_⟩
  intro r hr
  unfold Raw.next at hr
  obtain ⟨b, -, hr⟩ := bind_ok_inv hr
  cases b with
  | false =>
    simp only [Bool.not_false, if_true, pure, Except.pure, Except.ok.injEq] at hr
    exact hr.symm
  | true =>
    simp only [Bool.not_true, Bool.false_eq_true, if_false] at hr
    obtain ⟨s1, h2, -⟩ := bind_ok_inv hr
    unfold Raw.computeJacobianAndRHS at h2
    rw [hm] at h2
    simp only [forN, forFrom, Raw.rhsRound, hc0, hint, bind, Except.bind] at h2
    cases h2

/-- **C129** the counter: after `INT_MAX` steps without a `reset` another step towards a target inside the domain overflows the
counter. -/
theorem C129_overflow (g : Gels F) {s : Raw F} (hi : s.iter = 2147483647) (r : Int × Raw F) (hr : s.next g = .ok r) : r = (-3, s) := by
  unfold Raw.next at hr
  obtain ⟨b, -, hr⟩ := bind_ok_inv hr
  cases b with
  | false =>
    simp only [Bool.not_false, if_true, pure, Except.pure, Except.ok.injEq] at hr
    exact hr.symm
  | true =>
    simp only [Bool.not_true, Bool.false_eq_true, if_false] at hr
    obtain ⟨s1, h2, hr⟩ := bind_ok_inv hr
    have hi1 : s1.iter = 2147483647 := by
      unfold Raw.computeJacobianAndRHS at h2
      obtain ⟨w, -, h2⟩ := bind_ok_inv h2
      simp only [pure, Except.pure, Except.ok.injEq] at h2
      rw [← h2]; exact hi
    cases hsl : s1.slvr with
    | none => rw [hsl] at hr; cases hr
    | some sl =>
      rw [hsl] at hr
      obtain ⟨a, -, hr⟩ := bind_ok_inv hr
      obtain ⟨b, -, hr⟩ := bind_ok_inv hr
      obtain ⟨⟨c, c'⟩, -, hr⟩ := bind_ok_inv hr
      obtain ⟨ds, -, hr⟩ := bind_ok_inv hr
      obtain ⟨s2, h3, hr⟩ := bind_ok_inv hr
      have hi2 : s2.iter = 2147483647 := by
        unfold Raw.truncateIndices at h3
        obtain ⟨w, -, h3⟩ := bind_ok_inv h3
        simp only [pure, Except.pure, Except.ok.injEq] at h3
        rw [← h3]; exact hi1
      obtain ⟨it, h4, -⟩ := bind_ok_inv hr
      rw [hi2] at h4
      rw [show iadd 2147483647 1 = .error .signedOverflow by decide] at h4
      cases h4

/-! ### Non-vacuity -/

/-- A line of two nodes first, then a grid of 2 × 3 nodes on the same object, stretched along the second axis; memory for the start with
a number to spare.  The first step is taken with the slope at the start, the second reaches the target. -/
def ex_calls : List (FinderCall ℚ) := [.setGrid 1 [2] [1] [[5, -7]],
  .setGrid 2 [2, 3] [0, 0] [[0, 0, 0, 1, 1, 1], [0, 1, 4, 0, 1, 4, 77]], .reset [0, 0, 9] [1 / 2, 5 / 2], .next, .next]

example : ((runFinderCalls gels2 (Raw.new 10 (1 / 100)) ex_calls).toOption.map fun r => (r.1, r.2.dIndices, r.2.errorHistory)) =
    some ([0, 1], [1 / 2, 3 / 2], [9 / 4, 0]) := by decide +kernel
example : ((runFinderCalls gels2 (Raw.new 10 (1 / 100)) ex_calls).toOption.map fun r => (r.2.jacMatrix, r.2.rhs, r.2.iter)) =
    some ([1, 0, 0, 3], [0, -3 / 2], 2) := by decide +kernel
example : ((runFinderCalls gels2 (Raw.new 10 (1 / 100)) ex_calls).toOption.map fun r => (r.2.getPositionC [7, 7, 7]).toOption) =
    some (some [1 / 2, 5 / 2, 7]) := by decide +kernel

/-- The hypotheses of the history theorem. -/
example : KeepsSizes gels2 := by
  intro r
  refine ⟨rfl, ?_⟩
  unfold gels2
  dsimp only
  split_ifs with h
  · simp [h]
  · rfl
example : ∀ k : Nat, ((k : Int) : ℚ) = (k : ℚ) := fun k => by simp
example : List.Forall₂ (Means (n := 2)) [.reset (firstOf 2 [0, 0, 9]) (firstOf 2 [1 / 2, 5 / 2]), .next, .next]
    [(.reset [0, 0, 9] [1 / 2, 5 / 2] : FinderCall ℚ), .next, .next] :=
  .cons (.reset (by decide) (by decide)) (.cons .next (.cons .next .nil))

/-- A grid with one node along an axis: a step reads in front of the array. -/
example : (runFinderCalls gels2 (Raw.new 10 (1 / 100)) [.setGrid 2 [1, 3] [0, 0] [[0, 0, 0], [0, 1, 4]], .reset [0, 0] [0, 1], .next]).map
    Prod.fst = .error (.undefined .outOfBounds) := by decide +kernel

end Sg.Props
