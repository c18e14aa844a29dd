import Verif.Model.FindPointHistory
import Verif.Props.FindPoint
/-
Property C85: the domain reported by a cell finder, `getSrcDomainLo` and `getSrcDomainHi`.
-/
namespace Sg.Props
open Sg Sg.FindPoint Sg.LinearSolve Sg.Spec

section ordered
set_option linter.unusedSectionVars false
variable {K : Type} [Field K] [LinearOrder K] [IsStrictOrderedRing K] [FloorRing K] [FOps K] {n : Nat}

/-- The coordinates along axis `i` of all nodes of all grids set in a history of calls. -/
def nodesSet (cs : List (Call K n)) (i : Fin n) : Set K :=
  {c | ∃ dims per coords, Call.setGrid dims per coords ∈ cs ∧ ∃ j < ∏ k, dims k, c = coords i j}

theorem foldl_min_least (f : Nat → K) : ∀ (l : List Nat) (m : K),
    IsLeast (insert m {c | ∃ j ∈ l, c = f j}) (l.foldl (fun m j => if m < f j then m else f j) m)
  | [], m => by simp
  | a :: l, m => by
    have ih := foldl_min_least f l (if m < f a then m else f a)
    rw [List.foldl_cons]
    constructor
    · rcases ih.1 with h | ⟨j, hj, h⟩
      · rw [h]
        split_ifs
        · exact .inl rfl
        · exact .inr ⟨a, by simp, rfl⟩
      · exact .inr ⟨j, by simp [hj], h⟩
    · have h0 := ih.2 (Set.mem_insert _ _)
      rintro c (rfl | ⟨j, hj, rfl⟩)
      · refine h0.trans ?_
        split_ifs with h
        · exact le_rfl
        · exact not_lt.mp h
      · rcases List.mem_cons.mp hj with rfl | hj
        · refine h0.trans ?_
          split_ifs with h
          · exact h.le
          · exact le_rfl
        · exact ih.2 (.inr ⟨j, hj, rfl⟩)

theorem foldl_max_greatest (f : Nat → K) : ∀ (l : List Nat) (m : K),
    IsGreatest (insert m {c | ∃ j ∈ l, c = f j}) (l.foldl (fun m j => if f j < m then m else f j) m)
  | [], m => by simp
  | a :: l, m => by
    have ih := foldl_max_greatest f l (if f a < m then m else f a)
    rw [List.foldl_cons]
    constructor
    · rcases ih.1 with h | ⟨j, hj, h⟩
      · rw [h]
        split_ifs
        · exact .inl rfl
        · exact .inr ⟨a, by simp, rfl⟩
      · exact .inr ⟨j, by simp [hj], h⟩
    · have h0 := ih.2 (Set.mem_insert _ _)
      rintro c (rfl | ⟨j, hj, rfl⟩)
      · refine le_trans ?_ h0
        split_ifs with h
        · exact le_rfl
        · exact not_lt.mp h
      · rcases List.mem_cons.mp hj with rfl | hj
        · refine le_trans ?_ h0
          split_ifs with h
          · exact h.le
          · exact le_rfl
        · exact ih.2 (.inr ⟨j, hj, rfl⟩)

/-- The bounds kept after the calls `cs`. -/
def DomainOf (cs : List (Call K n)) (s : Finder K n) : Prop :=
  (s.bounds = none ∧ ∀ dims per coords, Call.setGrid dims per coords ∉ cs) ∨
  ∃ b, s.bounds = some b ∧ (∃ dims per coords, Call.setGrid dims per coords ∈ cs) ∧
    ∀ i, IsLeast (insert FOps.big (nodesSet cs i)) (b.1 i) ∧ IsGreatest (insert (-FOps.big) (nodesSet cs i)) (b.2 i)

theorem least_step {m a b : K} {A B C : Set K} (hA : IsLeast (insert m A) a) (hB : IsLeast (insert a B) b)
    (hC : C = A ∪ B) : IsLeast (insert m C) b := by
  subst hC
  constructor
  · rcases hB.1 with rfl | h
    · rcases hA.1 with h | h
      · exact .inl h
      · exact .inr (.inl h)
    · exact .inr (.inr h)
  · rintro c (rfl | h | h)
    · exact (hB.2 (Set.mem_insert _ _)).trans (hA.2 (Set.mem_insert _ _))
    · exact (hB.2 (Set.mem_insert _ _)).trans (hA.2 (.inr h))
    · exact hB.2 (.inr h)

theorem greatest_step {m a b : K} {A B C : Set K} (hA : IsGreatest (insert m A) a) (hB : IsGreatest (insert a B) b)
    (hC : C = A ∪ B) : IsGreatest (insert m C) b := by
  subst hC
  constructor
  · rcases hB.1 with rfl | h
    · rcases hA.1 with h | h
      · exact .inl h
      · exact .inr (.inl h)
    · exact .inr (.inr h)
  · rintro c (rfl | h | h)
    · exact le_trans (hA.2 (Set.mem_insert _ _)) (hB.2 (Set.mem_insert _ _))
    · exact le_trans (hA.2 (.inr h)) (hB.2 (Set.mem_insert _ _))
    · exact hB.2 (.inr h)

theorem domain_run (g : Gels K) : ∀ (cs pre : List (Call K n)) (s0 s : Finder K n),
    DomainOf pre s0 → runCalls g s0 cs = .ok s → DomainOf (pre ++ cs) s
  | [], pre, s0, s, h, e => by
    simp only [runCalls, Except.ok.injEq] at e
    rw [List.append_nil]; exact e ▸ h
  | c :: cs, pre, s0, s, h, e => by
    unfold runCalls at e
    obtain ⟨s1, h1, e⟩ := bind_ok_inv e
    rw [show pre ++ c :: cs = (pre ++ [c]) ++ cs by simp]
    refine domain_run g cs (pre ++ [c]) s1 s ?_ e
    have keep : (∀ dims per coords, c ≠ .setGrid dims per coords) → s1.bounds = s0.bounds → DomainOf (pre ++ [c]) s1 := by
      intro hc hb
      have hm : ∀ dims per coords, Call.setGrid dims per coords ∈ pre ++ [c] ↔ Call.setGrid dims per coords ∈ pre := by
        intro dims per coords
        simp only [List.mem_append, List.mem_singleton]
        exact ⟨fun h => h.resolve_right fun h => hc _ _ _ h.symm, .inl⟩
      unfold DomainOf nodesSet at h ⊢
      simp only [hm, hb]
      exact h
    cases c with
    | setGrid dims per coords =>
      simp only [Call.exec, Except.ok.injEq] at h1
      subst h1
      refine .inr ⟨_, rfl, ⟨dims, per, coords, by simp⟩, fun i => ?_⟩
      have hs : nodesSet (pre ++ [Call.setGrid dims per coords]) i =
          nodesSet pre i ∪ {c | ∃ j ∈ List.range (∏ k, dims k), c = coords i j} := by
        ext c
        constructor
        · rintro ⟨d, p, co, hm, j, hj, rfl⟩
          rcases List.mem_append.mp hm with hm | hm
          · exact .inl ⟨d, p, co, hm, j, hj, rfl⟩
          · obtain ⟨rfl, rfl, rfl⟩ : d = dims ∧ p = per ∧ co = coords := by simpa using hm
            exact .inr ⟨j, List.mem_range.mpr hj, rfl⟩
        · rintro (⟨d, p, co, hm, j, hj, rfl⟩ | ⟨j, hj, rfl⟩)
          · exact ⟨d, p, co, List.mem_append_left _ hm, j, hj, rfl⟩
          · exact ⟨dims, per, coords, by simp, j, List.mem_range.mp hj, rfl⟩
      rcases h with ⟨hb, hno⟩ | ⟨b, hb, -, hb'⟩
      · have he : nodesSet pre i = ∅ := by
          ext c; simp only [nodesSet, Set.mem_setOf_eq, Set.mem_empty_iff_false, iff_false]
          rintro ⟨d, p, co, hm, -⟩
          exact hno d p co hm
        rw [hs, he, Set.empty_union, hb]
        exact ⟨foldl_min_least _ _ _, foldl_max_greatest _ _ _⟩
      · rw [hb]
        exact ⟨least_step (hb' i).1 (foldl_min_least _ _ _) hs, greatest_step (hb' i).2 (foldl_max_greatest _ _ _) hs⟩
    | reset d t =>
      simp only [Call.exec, Except.ok.injEq] at h1
      subst h1
      exact keep (fun _ _ _ h => by cases h) rfl
    | next =>
      simp only [Call.exec] at h1
      obtain ⟨⟨c1, s2⟩, h2, h1⟩ := bind_ok_inv h1
      simp only [pure, Except.pure, Except.ok.injEq] at h1
      subst h1
      exact keep (fun _ _ _ h => by cases h) (next_frame g s0 c1 s2 h2).2.1

/-- **C85** What is reported after any sequence of calls: before the first grid is set nothing can be read (undefined
behaviour); afterwards, along each axis, the least and greatest coordinate of all nodes of *all* grids set so far. -/
theorem C85_history (g : Gels K) (hn : 1 ≤ n) (nitermax : Int) (tolpos : K) (cs : List (Call K n)) (s : Finder K n)
    (hrun : runCalls g (Finder.new nitermax tolpos) cs = .ok s) :
    ((∀ dims per coords, Call.setGrid dims per coords ∉ cs) → s.getSrcDomain = .error .badIterator) ∧
    ((∃ dims per coords, Call.setGrid dims per coords ∈ cs) → ∃ lo hi, s.getSrcDomain = .ok (lo, hi) ∧
      ∀ i, IsLeast (insert FOps.big (nodesSet cs i)) (lo i) ∧ IsGreatest (insert (-FOps.big) (nodesSet cs i)) (hi i)) := by
  have h := domain_run g cs [] _ s (.inl ⟨rfl, fun _ _ _ h => by cases h⟩) hrun
  rw [List.nil_append] at h
  constructor
  · intro hno
    rcases h with ⟨hb, -⟩ | ⟨b, -, ⟨d, p, c, hm⟩, -⟩
    · unfold Finder.getSrcDomain; rw [hb]
    · exact absurd hm (hno d p c)
  · rintro ⟨d, p, c, hm⟩
    rcases h with ⟨-, hno⟩ | ⟨b, hb, -, hb'⟩
    · exact absurd hm (hno d p c)
    · refine ⟨b.1, b.2, ?_, hb'⟩
      unfold Finder.getSrcDomain
      rw [hb]
      exact if_neg (by omega)

/-- **C85, part.**  Missing: objects that were given another grid before (`C85_refuted`).  Proved: if the only grid ever
set has at least one node and finite coordinates, then after any sequence of resets and steps the reported bounds are the
least and the greatest coordinate of its nodes. -/
theorem C85_domain_partial (g : Gels K) (hn : 1 ≤ n) (nitermax : Int) (tolpos : K) (cs : List (Call K n)) (s : Finder K n)
    (hrun : runCalls g (Finder.new nitermax tolpos) cs = .ok s)
    (dims : Fin n → Nat) (per : Fin n → Int) (coords : Fin n → Nat → K) (hset : Call.setGrid dims per coords ∈ cs)
    (honly : ∀ dims' per' coords', Call.setGrid dims' per' coords' ∈ cs → dims' = dims ∧ coords' = coords)
    (hpos : ∀ k, 1 ≤ dims k) (hfin : ∀ i, ∀ j < ∏ k, dims k, -FOps.big ≤ coords i j ∧ coords i j ≤ FOps.big) :
    ∃ lo hi, s.getSrcDomain = .ok (lo, hi) ∧ ∀ i, IsLeast {c | ∃ j < ∏ k, dims k, c = coords i j} (lo i) ∧
      IsGreatest {c | ∃ j < ∏ k, dims k, c = coords i j} (hi i) := by
  obtain ⟨lo, hi, e, h⟩ := (C85_history g hn nitermax tolpos cs s hrun).2 ⟨dims, per, coords, hset⟩
  have h0 : 0 < ∏ k, dims k := Finset.prod_pos fun k _ => hpos k
  have hs : ∀ i, nodesSet cs i = {c | ∃ j < ∏ k, dims k, c = coords i j} := by
    intro i
    ext c
    constructor
    · rintro ⟨d, p, co, hm, j, hj, rfl⟩
      obtain ⟨rfl, rfl⟩ := honly d p co hm
      exact ⟨j, hj, rfl⟩
    · rintro ⟨j, hj, rfl⟩
      exact ⟨dims, per, coords, hset, j, hj, rfl⟩
  refine ⟨lo, hi, e, fun i => ?_⟩
  obtain ⟨h1, h2⟩ := h i
  rw [hs i] at h1 h2
  refine ⟨⟨?_, fun c hc => h1.2 (.inr hc)⟩, ?_, fun c hc => h2.2 (.inr hc)⟩
  · rcases h1.1 with h | h
    · exact ⟨0, h0, le_antisymm (h1.2 (.inr ⟨0, h0, rfl⟩)) (by rw [h]; exact (hfin i 0 h0).2)⟩
    · exact h
  · rcases h2.1 with h | h
    · exact ⟨0, h0, le_antisymm (by rw [h]; exact (hfin i 0 h0).1) (h2.2 (.inr ⟨0, h0, rfl⟩))⟩
    · exact h

end ordered

/-- **C85 is false** for an object that is given a second grid: after the grid with nodes 0, 3 and then the grid with nodes
1, 2 the domain is still reported as [0, 3]. -/
theorem C85_refuted (g : Gels ℚ) : ∃ s : Finder ℚ 1,
    runCalls g (Finder.new 10 (1/10)) [.setGrid (fun _ => 2) (fun _ => 0) (fun _ j => 3 * j),
      .setGrid (fun _ => 2) (fun _ => 0) (fun _ j => 1 + j)] = .ok s ∧
    ∃ lo hi, s.getSrcDomain = .ok (lo, hi) ∧ lo 0 = 0 ∧ hi 0 = 3 := by
  refine ⟨_, rfl, _, _, rfl, ?_, ?_⟩ <;> decide +kernel

/-- The hypotheses of `C85_domain_partial` hold of the grid 1, 2 and a search on it. -/
example (g : Gels ℚ) : ∃ s : Finder ℚ 1, runCalls g (Finder.new 10 (1/10)) [.setGrid (fun _ => 2) (fun _ => 0) (fun _ j => 1 + j),
      .reset (fun _ => 0) (fun _ => 3/2)] = .ok s ∧
    ∃ lo hi, s.getSrcDomain = .ok (lo, hi) ∧
      IsLeast {c : ℚ | ∃ j < ∏ _k : Fin 1, 2, c = 1 + (j : Nat)} (lo 0) ∧ IsGreatest {c : ℚ | ∃ j < ∏ _k : Fin 1, 2, c = 1 + (j : Nat)} (hi 0) := by
  refine ⟨_, rfl, ?_⟩
  obtain ⟨lo, hi, e, h⟩ := C85_domain_partial g (le_refl 1) 10 (1/10) [.setGrid (fun _ => 2) (fun _ => 0) (fun _ j => 1 + j),
      .reset (fun _ => 0) (fun _ => 3/2)] _ rfl (fun _ => 2) (fun _ => 0) (fun _ j => 1 + (j : ℚ)) (by simp)
    (by
      intro d p c hm
      simp only [List.mem_cons, Call.setGrid.injEq, reduceCtorEq, List.not_mem_nil, or_false] at hm
      exact ⟨hm.1, hm.2.2⟩) (fun _ => by omega)
    (by
      intro i j hj
      have hb : (FOps.big : ℚ) = 2 ^ 1024 - 2 ^ 971 := rfl
      have : j = 0 ∨ j = 1 := by
        simp only [Finset.univ_unique, Finset.prod_singleton] at hj
        omega
      rw [hb]
      rcases this with rfl | rfl <;> decide +kernel)
  exact ⟨lo, hi, e, h 0⟩

end Sg.Props
