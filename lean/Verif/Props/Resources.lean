import Verif.Proof.Resources
/-
Property C75: what is allocated is released exactly once.  `run ⟨⟨n, live⟩, []⟩ prog` is the program `prog` started with `live`
allocated; a `delete` of something not allocated, or deleted before, would be an error.  `lives [] prog` is the table of the
objects of the program with the calls made on each; it is `none` for programs that use an object they did not make or have
deleted.
-/
namespace Sg.Props
open Sg Sg.Resources Sg.Spec

/-- **C75**, exactly: a program that deletes every object it makes, in any order and with any calls in between, runs without deleting
anything twice, and leaves as many more blocks than before as its objects leave behind, each the number `leftBehind` of its
class and calls.  The blocks that were there before are still there. -/
theorem C75_exact (n : Nat) (live : List Nat) (prog : List Stmt) (t : List Life)
    (ht : lives [] prog = some t) (hdel : ∀ l ∈ t, l.deleted = true) :
    ∃ s, run ⟨⟨n, live⟩, []⟩ prog = .ok s ∧ ∃ rest : List Nat, s.heap.live.Perm (live ++ rest) ∧
      rest.length = (t.map fun l => leftBehind l.kind l.calls).sum := by
  obtain ⟨s, e, hi⟩ := run_ok (base := live) prog ⟨⟨n, live⟩, []⟩ [] t
    ⟨rfl, fun i x l h => by simp at h, [], by simp, rfl⟩ ht
  obtain ⟨hlen, hrel, g, hp, hg⟩ := hi
  have hnone : ∀ x ∈ s.objs, x = none := by
    intro x hx
    obtain ⟨i, hi, rfl⟩ := List.mem_iff_getElem.mp hx
    have hit : i < t.length := by omega
    have hr := hrel i _ _ (List.getElem?_eq_getElem hi) (List.getElem?_eq_getElem hit)
    have hd := hdel _ (List.getElem_mem hit)
    revert hr
    cases s.objs[i] with
    | none => intro _; rfl
    | some po => intro hr; exact absurd hr.1 (by rw [hd]; decide)
  have hfm : s.objs.flatMap ownedO = [] := by
    rw [List.flatMap_eq_nil_iff]
    intro x hx
    rw [hnone x hx]
    rfl
  refine ⟨s, e, g, ?_, ?_⟩
  · rw [hfm, List.nil_append] at hp
    exact hp.trans List.perm_append_comm
  · rw [hg]
    congr 1
    refine List.map_congr_left fun l hl => ?_
    unfold leftBy
    rw [if_pos (hdel l hl)]

/-- **C75** where it holds: nothing is left by a program in which, for each object: the grid of a finder is set once at most, so is the
source grid of a node interpolator or a cell search, and the quadrilateral of a line projector; a conservative interpolator never
computes weights; a flow interpolator neither gets a source grid nor computes weights. -/
theorem C75_released_partial (n : Nat) (live : List Nat) (prog : List Stmt) (t : List Life)
    (ht : lives [] prog = some t) (hdel : ∀ l ∈ t, l.deleted = true)
    (hfinder : ∀ l ∈ t, l.kind = .finder → gridCalls l.calls ≤ 1)
    (hsearch : ∀ l ∈ t, l.kind = .node ∨ l.kind = .overlap → srcCalls l.calls ≤ 1)
    (hflows : ∀ l ∈ t, l.kind = .flows → quadCalls l.calls ≤ 1) (hconserve : ∀ l ∈ t, l.kind = .conserve → weightCalls l.calls = 0)
    (hflow : ∀ l ∈ t, l.kind = .flow → srcCalls l.calls = 0 ∧ weightCalls l.calls = 0) :
    ∃ s, run ⟨⟨n, live⟩, []⟩ prog = .ok s ∧ s.heap.live.Perm live := by
  obtain ⟨s, e, rest, hp, hl⟩ := C75_exact n live prog t ht hdel
  have : rest.length = 0 := by
    rw [hl, List.sum_eq_zero]
    intro x hx
    obtain ⟨l, hl, rfl⟩ := List.mem_map.mp hx
    have h1 := hfinder l hl
    have h2 := hsearch l hl
    have h3 := hflows l hl
    have h4 := hconserve l hl
    have h5 := hflow l hl
    unfold leftBehind
    split <;> rename_i hk
    · rfl
    · rfl
    · rfl
    · have := h1 hk; omega
    · have := h2 (.inl hk); omega
    · have := h2 (.inr hk); omega
    · have := h3 hk; omega
    · exact h4 hk
    · obtain ⟨h6, h7⟩ := h5 hk
      have : (l.calls.map weightsLeft).sum = 0 := by
        refine List.sum_eq_zero fun x hx => ?_
        obtain ⟨c, hc, rfl⟩ := List.mem_map.mp hx
        have h8 := List.length_eq_zero_iff.mp h7
        rw [List.filter_eq_nil_iff] at h8
        have := h8 c hc
        cases c <;> simp_all [weightsLeft]
      omega
  rw [List.length_eq_zero_iff] at this
  subst this
  exact ⟨s, e, by simpa using hp⟩

/-- **C75 is false** of a flow interpolator that is used once, as intended: set the grids, compute the weights, apply them, delete.  Of
the blocks allocated two are left, the iterator over cells and the solver of the intersector, for a line with one piece. -/
theorem C75_flow_refuted : ∃ s, run ⟨⟨0, []⟩, []⟩ [.new .flow, .call 0 .setSrcGrid, .call 0 .other, .call 0 (.computeWeights 1),
    .call 0 .other, .del 0] = .ok s ∧ s.heap.live.length = 2 := ⟨_, rfl, rfl⟩

/-- **C75 is false** of a conservative interpolator: each call of `computeWeights` leaves the solver of the intersector. -/
theorem C75_conserve_refuted (n : Nat) : ∃ s, run ⟨⟨0, []⟩, []⟩ ([.new .conserve] ++ List.replicate n (.call 0 (.computeWeights 0)) ++
    [.del 0]) = .ok s ∧ s.heap.live.length = n := by
  have hl : ∀ (m : Nat) (l : List Op), lives [⟨.conserve, l, false⟩] (List.replicate m (.call 0 (.computeWeights 0)) ++ [.del 0]) =
      some [⟨.conserve, l ++ List.replicate m (.computeWeights 0), true⟩] := by
    intro m
    induction m with
    | zero => intro l; simp [lives, liveOn]
    | succ m ih =>
      intro l
      rw [List.replicate_succ, List.cons_append]
      simp only [lives, liveOn, List.getElem?_cons_zero, Bool.false_eq_true, if_false, Option.bind_some, List.set_cons_zero]
      rw [ih, List.append_assoc, List.replicate_succ]
      rfl
  have h0 : lives [] ([.new .conserve] ++ List.replicate n (.call 0 (.computeWeights 0)) ++ [.del 0]) =
      some [⟨.conserve, List.replicate n (.computeWeights 0), true⟩] := hl n []
  obtain ⟨s, e, rest, hp, h⟩ := C75_exact 0 [] _ _ h0 (by simp)
  refine ⟨s, e, ?_⟩
  rw [hp.length_eq, List.nil_append, h]
  simp [leftBehind, weightCalls, countCalls]

/-- A case: two objects used in an interleaved way, one a finder whose grid is set twice.  One block is left. -/
example : lives [] [.new .finder, .new .node, .call 0 (.setGrid 2), .call 1 .setSrcGrid, .call 0 (.setGrid 3), .call 1 .other, .del 0, .del 1] =
      some [⟨.finder, [.setGrid 2, .setGrid 3], true⟩, ⟨.node, [.setSrcGrid, .other], true⟩] ∧
    ([⟨.finder, [.setGrid 2, .setGrid 3], true⟩, ⟨.node, [.setSrcGrid, .other], true⟩].map fun l : Life => leftBehind l.kind l.calls).sum = 1 :=
  ⟨rfl, rfl⟩

/-- Behind **C75**: at no point of any program are two allocated blocks at one address, so a second `delete` of a block cannot release
another one and is always seen. -/
theorem C75_one_address (n : Nat) (live : List Nat) (hn : live.Nodup) (hl : ∀ p ∈ live, p < n) (prog : List Stmt) (s : State)
    (e : run ⟨⟨n, live⟩, []⟩ prog = .ok s) : s.heap.live.Nodup ∧ s.heap.new.1 ∉ s.heap.live := by
  have h := fresh_run prog (s := ⟨⟨n, live⟩, []⟩) ⟨hn, hl⟩ e
  exact ⟨h.1, fun hm => absurd (h.2 _ hm) (lt_irrefl _)⟩

end Sg.Props
