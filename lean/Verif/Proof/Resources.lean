import Verif.Spec.Resources
import Mathlib.Data.List.Count
import Mathlib.Data.List.Perm.Basic
import Mathlib.Algebra.BigOperators.Group.List.Basic
import Mathlib.Tactic
/-
What objects hold and what they have lost.
-/
namespace Sg.Resources
open Sg Sg.Spec

theorem new_live (h : Heap) : h.new.2.live = h.new.1 :: h.live := rfl

theorem delete_ok {h : Heap} {p : Option Nat} {rest : List Nat} (hl : h.live.Perm (p.toList ++ rest)) :
    ∃ h', h.delete p = .ok h' ∧ h'.live.Perm rest := by
  cases p with
  | none => exact ⟨h, rfl, hl⟩
  | some p =>
    have hm : p ∈ h.live := hl.mem_iff.mpr (by simp)
    refine ⟨{ h with live := h.live.erase p }, by unfold Heap.delete; dsimp only; rw [if_pos hm], ?_⟩
    have := hl.erase p
    simpa using this

theorem bind_eq {α β : Type} {x : Cxx α} {f : α → Cxx β} {a : α} {r : Cxx β} (h : x = .ok a) (h' : f a = r) : (x >>= f) = r := by
  rw [h]; exact h'

/-- The blocks an object holds, in the order they are deleted; what is never deleted comes last. -/
def ownedF (f : Finder) : List Nat := f.slvr.toList
def ownedFlows (o : Flows) : List Nat := [o.g0] ++ ([o.g1] ++ (ownedF o.finder ++ [o.fp]))
def owned : Obj → List Nat
  | .plain => []
  | .finder f => ownedF f
  | .node p f => ownedF f ++ [p]
  | .overlap p f => ownedF f ++ [p]
  | .quadX s => [s]
  | .lineX s => [s]
  | .flows o => ownedFlows o
  | .conserve => []
  | .flow o => o.node.toList ++ (o.edge0.toList ++ (o.edge1.toList ++ o.cell.toList))

/-- What of it the destructor does not delete. -/
def keptBy : Obj → List Nat
  | .flow o => o.cell.toList
  | _ => []

theorem flows_dtor {o : Flows} {h : Heap} {rest : List Nat} (hl : h.live.Perm (ownedFlows o ++ rest)) :
    ∃ h', o.dtor h = .ok h' ∧ h'.live.Perm rest := by
  unfold ownedFlows at hl
  simp only [List.append_assoc] at hl
  obtain ⟨h1, e1, l1⟩ := delete_ok (p := some o.g0) hl
  obtain ⟨h2, e2, l2⟩ := delete_ok (p := some o.g1) l1
  obtain ⟨h3, e3, l3⟩ := delete_ok (p := o.finder.slvr) l2
  obtain ⟨h4, e4, l4⟩ := delete_ok (p := some o.fp) l3
  exact ⟨h4, bind_eq e1 (bind_eq e2 (bind_eq e3 e4)), l4⟩

theorem destroy_ok {o : Obj} {h : Heap} {rest : List Nat} (hl : h.live.Perm (owned o ++ rest)) :
    ∃ h', destroy o h = .ok h' ∧ h'.live.Perm (keptBy o ++ rest) := by
  cases o with
  | plain => exact ⟨h, rfl, hl⟩
  | finder f => exact delete_ok hl
  | node p f =>
    simp only [owned, List.append_assoc] at hl
    obtain ⟨h1, e1, l1⟩ := delete_ok (p := f.slvr) hl
    obtain ⟨h2, e2, l2⟩ := delete_ok (p := some p) l1
    exact ⟨h2, bind_eq e1 e2, l2⟩
  | overlap p f =>
    simp only [owned, List.append_assoc] at hl
    obtain ⟨h1, e1, l1⟩ := delete_ok (p := f.slvr) hl
    obtain ⟨h2, e2, l2⟩ := delete_ok (p := some p) l1
    exact ⟨h2, bind_eq e1 e2, l2⟩
  | quadX s => exact delete_ok (p := some s) hl
  | lineX s => exact delete_ok (p := some s) hl
  | flows o => exact flows_dtor hl
  | conserve => exact ⟨h, rfl, hl⟩
  | flow o =>
    simp only [owned, List.append_assoc] at hl
    obtain ⟨h1, e1, l1⟩ := delete_ok (p := o.node) hl
    obtain ⟨h2, e2, l2⟩ := delete_ok (p := o.edge0) l1
    obtain ⟨h3, e3, l3⟩ := delete_ok (p := o.edge1) l2
    exact ⟨h3, bind_eq e1 (bind_eq e2 e3), l3⟩

/-! ### What calls lose -/

theorem setGrid_live (f : Finder) {nd : Int} (hnd : 0 < nd) {h : Heap} {rest : List Nat} (hl : h.live.Perm (ownedF f ++ rest)) :
    (f.setGrid nd h).2.live.Perm (ownedF (f.setGrid nd h).1 ++ (ownedF f ++ rest)) ∧ (f.setGrid nd h).1.slvr.isSome = true := by
  unfold Finder.setGrid
  rw [if_neg (by omega)]
  exact ⟨by rw [new_live]; exact hl.cons _, rfl⟩

theorem flows_ctor_live {h : Heap} {rest : List Nat} (hl : h.live.Perm rest) :
    (Flows.ctor h).2.live.Perm (ownedFlows (Flows.ctor h).1 ++ rest) := by
  unfold Flows.ctor ownedFlows ownedF Finder.ctor
  rw [new_live, new_live, new_live]
  rw [List.perm_iff_count] at hl ⊢
  intro x
  have := hl x
  simp only [List.count_append, List.count_cons, List.count_nil, Option.toList_none, List.append_nil, List.nil_append] at this ⊢
  omega

theorem flows_set_live (o : Flows) {h : Heap} {rest : List Nat} (hl : h.live.Perm (ownedFlows o ++ rest)) :
    (o.setQuadPoints h).2.live.Perm (ownedFlows (o.setQuadPoints h).1 ++ (ownedF o.finder ++ rest)) ∧
      (o.setQuadPoints h).1.finder.slvr.isSome = true := by
  unfold Flows.setQuadPoints Finder.setGrid
  rw [if_neg (by omega)]
  refine ⟨?_, rfl⟩
  dsimp only
  rw [new_live]
  unfold ownedFlows ownedF at *
  rw [List.perm_iff_count] at hl ⊢
  intro x
  have := hl x
  simp only [List.count_append, List.count_cons, List.count_nil, Option.toList_some, List.append_nil, List.nil_append] at this ⊢
  omega

theorem flows_many : ∀ (m : Nat) (o : Flows) (h : Heap) (rest : List Nat), h.live.Perm (ownedFlows o ++ rest) →
    ∃ g : List Nat, (o.setMany h m).2.live.Perm (ownedFlows (o.setMany h m).1 ++ (g ++ rest)) ∧
      g.length = if o.finder.slvr.isSome then m else m - 1
  | 0, o, h, rest, hl => ⟨[], hl, by split_ifs <;> rfl⟩
  | m + 1, o, h, rest, hl => by
    obtain ⟨h1, h2⟩ := flows_set_live o hl
    obtain ⟨g, h3, h4⟩ := flows_many m _ _ _ h1
    refine ⟨g ++ ownedF o.finder, ?_, ?_⟩
    · rw [List.append_assoc]; exact h3
    · rw [if_pos h2] at h4
      rw [List.length_append, h4]
      unfold ownedF
      cases o.finder.slvr <;> simp

theorem compute_live (o : Flow) (m : Nat) {h : Heap} {rest : List Nat} (hl : h.live.Perm rest) :
    ∃ h' g, o.computeWeights m h = .ok (o, h') ∧ h'.live.Perm (g ++ rest) ∧ g.length = 1 + (m - 1) := by
  have h1 : h.new.2.live.Perm (h.new.1 :: rest) := by rw [new_live]; exact hl.cons _
  have h2 := flows_ctor_live h1
  obtain ⟨g, h3, h4⟩ := flows_many m _ _ _ h2
  obtain ⟨h', e, h5⟩ := flows_dtor h3
  refine ⟨h', g ++ [h.new.1], bind_eq e rfl, by simpa using h5, ?_⟩
  rw [List.length_append, h4]
  simp [Flows.ctor, Finder.ctor]
  omega

/-- What an object has lost before it is deleted. -/
def lost (k : Kind) (calls : List Op) : Nat :=
  match k with
  | .flow => (4 * srcCalls calls - 4) + (calls.map weightsLeft).sum
  | k => leftBehind k calls

/-- The object after these calls. -/
def Matches (calls : List Op) : Kind → Obj → Prop
  | .plain, .plain => True
  | .finder, .finder f => f.slvr.isSome = decide (0 < gridCalls calls)
  | .node, .node _ f => f.slvr.isSome = decide (0 < srcCalls calls)
  | .overlap, .overlap _ f => f.slvr.isSome = decide (0 < srcCalls calls)
  | .quadX, .quadX _ => True
  | .lineX, .lineX _ => True
  | .flows, .flows o => o.finder.slvr.isSome = decide (0 < quadCalls calls)
  | .conserve, .conserve => True
  | .flow, .flow o => o.node.isSome = decide (0 < srcCalls calls) ∧ o.edge0.isSome = decide (0 < srcCalls calls) ∧
      o.edge1.isSome = decide (0 < srcCalls calls) ∧ o.cell.isSome = decide (0 < srcCalls calls)
  | _, _ => False

theorem count_snoc (p : Op → Bool) (l : List Op) (c : Op) : countCalls p (l ++ [c]) = countCalls p l + if p c then 1 else 0 := by
  unfold countCalls
  rw [List.filter_append, List.length_append]
  cases h : p c <;> simp [h]

theorem toList_length {p : Option Nat} {n : Nat} (h : p.isSome = decide (0 < n)) : p.toList.length + (n - 1) = n := by
  cases p with
  | none =>
    have : ¬ 0 < n := by simpa using h
    simp; omega
  | some a =>
    have : 0 < n := by simpa using h.symm
    simp; omega

theorem construct_ok (k : Kind) {h : Heap} {rest : List Nat} (hl : h.live.Perm rest) :
    (construct k h).2.live.Perm (owned (construct k h).1 ++ rest) ∧ Matches [] k (construct k h).1 := by
  cases k with
  | plain => exact ⟨hl, trivial⟩
  | finder => exact ⟨hl, rfl⟩
  | node => exact ⟨hl.cons _, rfl⟩
  | overlap => exact ⟨hl.cons _, rfl⟩
  | quadX => exact ⟨hl.cons _, trivial⟩
  | lineX => exact ⟨hl.cons _, trivial⟩
  | flows => exact ⟨flows_ctor_live hl, rfl⟩
  | conserve => exact ⟨hl, trivial⟩
  | flow => exact ⟨hl, rfl, rfl, rfl, rfl⟩

/-- A call that does nothing. -/
theorem call_none {k : Kind} {calls : List Op} {o : Obj} {c : Op} {h : Heap} {rest : List Nat} (hm : Matches calls k o)
    (hl : h.live.Perm (owned o ++ rest)) (e : call o c h = .ok (o, h))
    (h1 : k = .finder → gridCalls (calls ++ [c]) = gridCalls calls)
    (h2 : k = .node ∨ k = .overlap ∨ k = .flow → srcCalls (calls ++ [c]) = srcCalls calls)
    (h3 : k = .flows → quadCalls (calls ++ [c]) = quadCalls calls) (h4 : k = .conserve → weightCalls (calls ++ [c]) = weightCalls calls)
    (h5 : k = .flow → weightsLeft c = 0) :
    ∃ o' h' g, call o c h = .ok (o', h') ∧ Matches (calls ++ [c]) k o' ∧ h'.live.Perm (owned o' ++ (g ++ rest)) ∧
      lost k (calls ++ [c]) = lost k calls + g.length := by
  refine ⟨o, h, [], e, ?_, hl, ?_⟩
  · cases k <;> cases o <;> simp_all [Matches]
  · cases k <;> simp_all [lost, leftBehind]

theorem call_ok {k : Kind} {calls : List Op} {o : Obj} (c : Op) {h : Heap} {rest : List Nat} (hm : Matches calls k o)
    (hl : h.live.Perm (owned o ++ rest)) :
    ∃ o' h' g, call o c h = .ok (o', h') ∧ Matches (calls ++ [c]) k o' ∧ h'.live.Perm (owned o' ++ (g ++ rest)) ∧
      lost k (calls ++ [c]) = lost k calls + g.length := by
  cases k <;> cases o <;> first | exact hm.elim | skip
  case plain.plain => exact call_none hm hl (by cases c <;> rfl) nofun (by simp) nofun nofun nofun
  case quadX.quadX => exact call_none hm hl (by cases c <;> rfl) nofun (by simp) nofun nofun nofun
  case lineX.lineX => exact call_none hm hl (by cases c <;> rfl) nofun (by simp) nofun nofun nofun
  case finder.finder f =>
    by_cases hc : ∃ nd, c = .setGrid nd ∧ 0 < nd
    · obtain ⟨nd, rfl, hnd⟩ := hc
      obtain ⟨h1, h2⟩ := setGrid_live f hnd hl
      have hg : gridCalls (calls ++ [.setGrid nd]) = gridCalls calls + 1 := by
        unfold gridCalls; rw [count_snoc]; simp [hnd]
      refine ⟨_, _, ownedF f, rfl, ?_, h1, ?_⟩
      · simp only [Matches, h2, hg]; simp
      · have := toList_length hm
        simp only [lost, leftBehind, hg, ownedF]
        omega
    · refine call_none hm hl ?_ ?_ (by simp) nofun nofun nofun
      · cases c with
        | setGrid nd =>
          have : nd ≤ 0 := by
            by_contra hn
            exact hc ⟨nd, rfl, by omega⟩
          simp [call, Finder.setGrid, this]
        | _ => rfl
      · intro _
        unfold gridCalls
        rw [count_snoc]
        cases c with
        | setGrid nd => have : ¬ 0 < nd := fun hn => hc ⟨nd, rfl, hn⟩
                        simp [this]
        | _ => rfl
  case node.node p f =>
    by_cases hc : c = .setSrcGrid
    · subst hc
      have hl' : h.live.Perm (ownedF f ++ (p :: rest)) := by simpa [owned] using hl
      obtain ⟨h1, h2⟩ := setGrid_live f (nd := 2) (by norm_num) hl'
      have hg : srcCalls (calls ++ [.setSrcGrid]) = srcCalls calls + 1 := by unfold srcCalls; rw [count_snoc]; simp
      refine ⟨_, _, ownedF f, rfl, ?_, ?_, ?_⟩
      · simp only [Matches, h2, hg]; simp
      · refine h1.trans ?_
        simp only [owned]
        rw [List.perm_iff_count]
        intro x
        simp only [List.count_append, List.count_cons, List.count_nil]
        omega
      · have := toList_length hm
        simp only [lost, leftBehind, hg, ownedF]
        omega
    · refine call_none hm hl (by cases c <;> first | exact absurd rfl hc | rfl) nofun ?_ nofun nofun nofun
      intro _
      unfold srcCalls
      rw [count_snoc]
      simp [hc]
  case overlap.overlap p f =>
    by_cases hc : c = .setSrcGrid
    · subst hc
      have hl' : h.live.Perm (ownedF f ++ (p :: rest)) := by simpa [owned] using hl
      obtain ⟨h1, h2⟩ := setGrid_live f (nd := 2) (by norm_num) hl'
      have hg : srcCalls (calls ++ [.setSrcGrid]) = srcCalls calls + 1 := by unfold srcCalls; rw [count_snoc]; simp
      refine ⟨_, _, ownedF f, rfl, ?_, ?_, ?_⟩
      · simp only [Matches, h2, hg]; simp
      · refine h1.trans ?_
        simp only [owned]
        rw [List.perm_iff_count]
        intro x
        simp only [List.count_append, List.count_cons, List.count_nil]
        omega
      · have := toList_length hm
        simp only [lost, leftBehind, hg, ownedF]
        omega
    · refine call_none hm hl (by cases c <;> first | exact absurd rfl hc | rfl) nofun ?_ nofun nofun nofun
      intro _
      unfold srcCalls
      rw [count_snoc]
      simp [hc]
  case flows.flows o =>
    by_cases hc : c = .setQuadPoints
    · subst hc
      obtain ⟨h1, h2⟩ := flows_set_live o hl
      have hg : quadCalls (calls ++ [.setQuadPoints]) = quadCalls calls + 1 := by unfold quadCalls; rw [count_snoc]; simp
      refine ⟨_, _, ownedF o.finder, rfl, ?_, h1, ?_⟩
      · simp only [Matches, h2, hg]; simp
      · have := toList_length hm
        simp only [lost, leftBehind, hg, ownedF]
        omega
    · refine call_none hm hl (by cases c <;> first | exact absurd rfl hc | rfl) nofun (by simp) ?_ nofun nofun
      intro _
      unfold quadCalls
      rw [count_snoc]
      simp [hc]
  case conserve.conserve =>
    by_cases hc : ∃ m, c = .computeWeights m
    · obtain ⟨m, rfl⟩ := hc
      refine ⟨_, _, [h.new.1], rfl, trivial, hl.cons _, ?_⟩
      simp only [lost, leftBehind, weightCalls]
      rw [count_snoc]
      rfl
    · refine call_none hm hl (by cases c <;> first | exact absurd ⟨_, rfl⟩ hc | rfl) nofun (by simp) nofun ?_ nofun
      intro _
      unfold weightCalls
      rw [count_snoc]
      cases c <;> first | exact absurd ⟨_, rfl⟩ hc | rfl
  case flow.flow o =>
    cases c with
    | setSrcGrid =>
      have hg : srcCalls (calls ++ [.setSrcGrid]) = srcCalls calls + 1 := by unfold srcCalls; rw [count_snoc]; simp
      refine ⟨_, _, owned (.flow o), rfl, ?_, ?_, ?_⟩
      · simp [Matches, Flow.setSrcGrid, hg]
      · simp only [Flow.setSrcGrid, new_live, owned] at hl ⊢
        rw [List.perm_iff_count] at hl ⊢
        intro x
        have := hl x
        simp only [List.count_append, List.count_cons, List.count_nil, Option.toList_some] at this ⊢
        omega
      · obtain ⟨m1, m2, m3, m4⟩ := hm
        have t1 := toList_length m1
        have t2 := toList_length m2
        have t3 := toList_length m3
        have t4 := toList_length m4
        simp only [lost, hg, owned, List.length_append, List.map_append, List.sum_append, List.map_cons, List.map_nil, List.sum_cons,
          List.sum_nil, weightsLeft]
        omega
    | computeWeights m =>
      have hg : srcCalls (calls ++ [.computeWeights m]) = srcCalls calls := by unfold srcCalls; rw [count_snoc]; simp
      obtain ⟨h', g, e, hp, hgl⟩ := compute_live o m hl
      refine ⟨.flow o, h', g, bind_eq e rfl, ?_, ?_, ?_⟩
      · simpa only [Matches, hg] using hm
      · refine hp.trans ?_
        rw [List.perm_iff_count]
        intro x
        simp only [List.count_append]
        omega
      · simp only [lost, hg, List.map_append, List.sum_append, List.map_cons, List.map_nil, List.sum_cons, List.sum_nil, weightsLeft, hgl]
        omega
    | setGrid nd =>
      refine call_none hm hl rfl nofun (fun _ => ?_) nofun nofun (fun _ => rfl)
      unfold srcCalls; rw [count_snoc]; simp
    | setQuadPoints =>
      refine call_none hm hl rfl nofun (fun _ => ?_) nofun nofun (fun _ => rfl)
      unfold srcCalls; rw [count_snoc]; simp
    | other =>
      refine call_none hm hl rfl nofun (fun _ => ?_) nofun nofun (fun _ => rfl)
      unfold srcCalls; rw [count_snoc]; simp

theorem kept_lost {k : Kind} {calls : List Op} {o : Obj} (hm : Matches calls k o) :
    leftBehind k calls = lost k calls + (keptBy o).length := by
  cases k <;> cases o <;> first | exact hm.elim | skip
  all_goals first | rfl | skip
  case flow.flow o =>
    have := toList_length hm.2.2.2
    simp only [leftBehind, lost, keptBy]
    omega

/-! ### Programs -/

def ownedO : Option (Nat × Obj) → List Nat
  | some (p, o) => owned o ++ [p]
  | none => []

/-- The blocks an object has left so far. -/
def leftBy (l : Life) : Nat := if l.deleted then leftBehind l.kind l.calls else lost l.kind l.calls

def Rel : Option (Nat × Obj) → Life → Prop
  | some (_, o), l => l.deleted = false ∧ Matches l.calls l.kind o
  | none, l => l.deleted = true

structure Inv (base : List Nat) (s : State) (t : List Life) : Prop where
  len : s.objs.length = t.length
  rel : ∀ (i : Nat) (x : Option (Nat × Obj)) (l : Life), s.objs[i]? = some x → t[i]? = some l → Rel x l
  heap : ∃ g : List Nat, s.heap.live.Perm (s.objs.flatMap ownedO ++ (g ++ base)) ∧ g.length = (t.map leftBy).sum

theorem set_split {α : Type} {l : List α} {i : Nat} {x : α} (h : l[i]? = some x) :
    ∃ a b, l = a ++ x :: b ∧ ∀ y, l.set i y = a ++ y :: b := by
  have hi : i < l.length := by
    by_contra hn
    rw [List.getElem?_eq_none (by omega)] at h
    cases h
  rw [List.getElem?_eq_getElem hi, Option.some.injEq] at h
  refine ⟨l.take i, l.drop (i + 1), ?_, fun y => ?_⟩
  · rw [← h, List.getElem_cons_drop, List.take_append_drop]
  · rw [List.set_eq_take_append_cons_drop, if_pos hi]

theorem step_ok {base : List Nat} {s : State} {t : List Life} (hi : Inv base s t) (c : Stmt) {t' : List Life} (ht : liveOn t c = some t') :
    ∃ s', step s c = .ok s' ∧ Inv base s' t' := by
  obtain ⟨hlen, hrel, g, hp, hg⟩ := hi
  cases c with
  | new k =>
    simp only [liveOn, Option.some.injEq] at ht
    subst ht
    have h1 : s.heap.new.2.live.Perm (s.heap.new.1 :: (s.objs.flatMap ownedO ++ (g ++ base))) := by rw [new_live]; exact hp.cons _
    obtain ⟨h2, h3⟩ := construct_ok k h1
    refine ⟨_, rfl, ⟨by simp [hlen], ?_, g, ?_, ?_⟩⟩
    · intro i x l hx hl
      dsimp only at hx
      rcases lt_trichotomy i s.objs.length with h | h | h
      · rw [List.getElem?_append_left h] at hx
        rw [List.getElem?_append_left (by omega)] at hl
        exact hrel i x l hx hl
      · rw [h, List.getElem?_append_right le_rfl] at hx
        rw [h, hlen, List.getElem?_append_right le_rfl] at hl
        simp only [Nat.sub_self, List.getElem?_cons_zero, Option.some.injEq] at hx hl
        subst hx hl
        exact ⟨rfl, h3⟩
      · rw [List.getElem?_eq_none (by simp; omega)] at hx
        cases hx
    · refine h2.trans ?_
      rw [List.flatMap_append, List.perm_iff_count]
      intro x
      simp only [List.count_append, List.count_cons, List.count_nil, List.flatMap_cons, List.flatMap_nil, ownedO]
      omega
    · rw [hg]
      simp only [List.map_append, List.sum_append, List.map_cons, List.map_nil, List.sum_cons, List.sum_nil, leftBy]
      have : lost k [] = 0 := by cases k <;> rfl
      simp [this]
  | call i c =>
    simp only [liveOn] at ht
    split at ht
    · rename_i l hl
      split_ifs at ht with hd
      simp only [Option.some.injEq] at ht
      subst ht
      have hi : i < s.objs.length := by
        rw [hlen]
        by_contra hn
        rw [List.getElem?_eq_none (by omega)] at hl
        cases hl
      obtain ⟨x, hx⟩ : ∃ x, s.objs[i]? = some x := ⟨_, List.getElem?_eq_getElem hi⟩
      have hr := hrel i x l hx hl
      cases x with
      | none => exact absurd hr (by simpa [Rel] using hd)
      | some po =>
        obtain ⟨p, o⟩ := po
        obtain ⟨a, b, e1, e2⟩ := set_split hx
        obtain ⟨a', b', e3, e4⟩ := set_split hl
        have hp' : s.heap.live.Perm (owned o ++ ([p] ++ a.flatMap ownedO ++ b.flatMap ownedO ++ (g ++ base))) := by
          refine hp.trans ?_
          rw [e1, List.flatMap_append, List.flatMap_cons, List.perm_iff_count]
          intro x
          simp only [List.count_append, ownedO]
          omega
        obtain ⟨o', h', g', ec, hm, hpp, hll⟩ := call_ok c hr.2 hp'
        refine ⟨⟨h', s.objs.set i (some (p, o'))⟩, ?_, ⟨by simp [hlen], ?_, g' ++ g, ?_, ?_⟩⟩
        · simp only [step, hx]
          exact bind_eq ec rfl
        · intro j x l' hx' hl'
          dsimp only at hx'
          by_cases hj : i = j
          · subst hj
            rw [List.getElem?_set_self hi] at hx'
            rw [List.getElem?_set_self (by omega)] at hl'
            simp only [Option.some.injEq] at hx' hl'
            subst hx' hl'
            exact ⟨hr.1, hm⟩
          · rw [List.getElem?_set_ne hj] at hx' hl'
            exact hrel j x l' hx' hl'
        · refine hpp.trans ?_
          dsimp only
          rw [e2, List.flatMap_append, List.flatMap_cons, List.perm_iff_count]
          intro x
          simp only [List.count_append, ownedO]
          omega
        · rw [List.length_append, hg, e4, e3]
          simp only [List.map_append, List.sum_append, List.map_cons, List.sum_cons, leftBy, hr.1, Bool.false_eq_true, if_false, hll]
          omega
    · cases ht
  | del i =>
    simp only [liveOn] at ht
    split at ht
    · rename_i l hl
      split_ifs at ht with hd
      simp only [Option.some.injEq] at ht
      subst ht
      have hi : i < s.objs.length := by
        rw [hlen]
        by_contra hn
        rw [List.getElem?_eq_none (by omega)] at hl
        cases hl
      obtain ⟨x, hx⟩ : ∃ x, s.objs[i]? = some x := ⟨_, List.getElem?_eq_getElem hi⟩
      have hr := hrel i x l hx hl
      cases x with
      | none => exact absurd hr (by simpa [Rel] using hd)
      | some po =>
        obtain ⟨p, o⟩ := po
        obtain ⟨a, b, e1, e2⟩ := set_split hx
        obtain ⟨a', b', e3, e4⟩ := set_split hl
        have hp' : s.heap.live.Perm (owned o ++ ([p] ++ a.flatMap ownedO ++ b.flatMap ownedO ++ (g ++ base))) := by
          refine hp.trans ?_
          rw [e1, List.flatMap_append, List.flatMap_cons, List.perm_iff_count]
          intro x
          simp only [List.count_append, ownedO]
          omega
        obtain ⟨h1, ed, hp1⟩ := destroy_ok hp'
        have hp2 : h1.live.Perm ((some p).toList ++ (keptBy o ++ (a.flatMap ownedO ++ b.flatMap ownedO ++ (g ++ base)))) := by
          refine hp1.trans ?_
          rw [List.perm_iff_count]
          intro x
          simp only [List.count_append, Option.toList_some]
          omega
        obtain ⟨h2, ed2, hp3⟩ := delete_ok hp2
        refine ⟨⟨h2, s.objs.set i none⟩, ?_, ⟨by simp [hlen], ?_, keptBy o ++ g, ?_, ?_⟩⟩
        · simp only [step, hx]
          exact bind_eq ed (bind_eq ed2 rfl)
        · intro j x l' hx' hl'
          dsimp only at hx'
          by_cases hj : i = j
          · subst hj
            rw [List.getElem?_set_self hi] at hx'
            rw [List.getElem?_set_self (by omega)] at hl'
            simp only [Option.some.injEq] at hx' hl'
            subst hx' hl'
            rfl
          · rw [List.getElem?_set_ne hj] at hx' hl'
            exact hrel j x l' hx' hl'
        · refine hp3.trans ?_
          dsimp only
          rw [e2, List.flatMap_append, List.flatMap_cons, List.perm_iff_count]
          intro x
          simp only [List.count_append, ownedO, List.count_nil]
          omega
        · rw [List.length_append, hg, e4, e3]
          simp only [List.map_append, List.sum_append, List.map_cons, List.sum_cons, leftBy, hr.1, Bool.false_eq_true, if_false, if_true,
            kept_lost hr.2]
          omega
    · cases ht

theorem run_ok {base : List Nat} : ∀ (prog : List Stmt) (s : State) (t t' : List Life), Inv base s t → lives t prog = some t' →
    ∃ s', run s prog = .ok s' ∧ Inv base s' t'
  | [], s, t, t', hi, h => by
    simp only [lives, Option.some.injEq] at h
    subst h
    exact ⟨s, rfl, hi⟩
  | c :: l, s, t, t', hi, h => by
    simp only [lives] at h
    obtain ⟨t1, h1, h2⟩ := Option.bind_eq_some_iff.mp h
    obtain ⟨s1, e1, i1⟩ := step_ok hi c h1
    obtain ⟨s', e2, i2⟩ := run_ok l s1 t1 t' i1 h2
    exact ⟨s', bind_eq e1 e2, i2⟩

/-! ### No two blocks at one address -/

/-- The allocated blocks are at different addresses, none of them to be given again. -/
def Fresh (h : Heap) : Prop := h.live.Nodup ∧ ∀ p ∈ h.live, p < h.next

theorem fresh_new {h : Heap} (hf : Fresh h) : Fresh h.new.2 := by
  refine ⟨List.nodup_cons.mpr ⟨fun hm => ?_, hf.1⟩, ?_⟩
  · exact absurd (hf.2 _ hm) (lt_irrefl _)
  · intro p hp
    rcases List.mem_cons.mp hp with rfl | hp
    · exact Nat.lt_succ_self _
    · exact Nat.lt_succ_of_lt (hf.2 p hp)

theorem fresh_delete {h h' : Heap} {p : Option Nat} (hf : Fresh h) (e : h.delete p = .ok h') : Fresh h' := by
  cases p with
  | none => cases e; exact hf
  | some p =>
    unfold Heap.delete at e
    dsimp only at e
    split_ifs at e
    cases e
    exact ⟨hf.1.erase _, fun q hq => hf.2 q (List.mem_of_mem_erase hq)⟩

theorem bind_inv {α β : Type} {x : Cxx α} {f : α → Cxx β} {b : β} (h : (x >>= f) = .ok b) : ∃ a, x = .ok a ∧ f a = .ok b := by
  cases x with
  | error e => cases h
  | ok a => exact ⟨a, rfl, h⟩

theorem fresh_setGrid {f : Finder} {n : Int} {h : Heap} (hf : Fresh h) : Fresh (f.setGrid n h).2 := by
  unfold Finder.setGrid
  split_ifs
  · exact hf
  · exact fresh_new hf

theorem fresh_ctor {h : Heap} (hf : Fresh h) : Fresh (Flows.ctor h).2 := fresh_new (fresh_new (fresh_new hf))

theorem fresh_setMany (m : Nat) : ∀ {o : Flows} {h : Heap}, Fresh h → Fresh (o.setMany h m).2 := by
  induction m with
  | zero => intro o h hf; exact hf
  | succ m ih => intro o h hf; exact ih (fresh_setGrid hf)

theorem fresh_flows_dtor {o : Flows} {h h' : Heap} (hf : Fresh h) (e : o.dtor h = .ok h') : Fresh h' := by
  obtain ⟨h1, e1, e⟩ := bind_inv e
  obtain ⟨h2, e2, e⟩ := bind_inv e
  obtain ⟨h3, e3, e⟩ := bind_inv e
  exact fresh_delete (fresh_delete (fresh_delete (fresh_delete hf e1) e2) e3) e

theorem fresh_construct {k : Kind} {h : Heap} (hf : Fresh h) : Fresh (construct k h).2 := by
  cases k <;> first | exact hf | exact fresh_new hf | exact fresh_ctor hf

theorem fresh_call {o : Obj} {c : Op} {h : Heap} {r : Obj × Heap} (hf : Fresh h) (e : call o c h = .ok r) : Fresh r.2 := by
  cases o <;> cases c <;> first
    | (cases e; exact hf)
    | (cases e; exact fresh_setGrid hf)
    | (cases e; exact fresh_new hf)
    | (cases e; exact fresh_new (fresh_new (fresh_new (fresh_new hf))))
    | (obtain ⟨a, e1, e2⟩ := bind_inv e
       obtain ⟨b, e3, e4⟩ := bind_inv e1
       cases e2; cases e4
       exact fresh_flows_dtor (fresh_setMany _ (fresh_ctor (fresh_new hf))) e3)

theorem fresh_destroy {o : Obj} {h h' : Heap} (hf : Fresh h) (e : destroy o h = .ok h') : Fresh h' := by
  cases o with
  | plain => cases e; exact hf
  | conserve => cases e; exact hf
  | finder f => exact fresh_delete hf e
  | quadX s => exact fresh_delete (p := some s) hf e
  | lineX s => exact fresh_delete (p := some s) hf e
  | node p f =>
    obtain ⟨h1, e1, e⟩ := bind_inv e
    exact fresh_delete (fresh_delete hf e1) e
  | overlap p f =>
    obtain ⟨h1, e1, e⟩ := bind_inv e
    exact fresh_delete (fresh_delete hf e1) e
  | flows o => exact fresh_flows_dtor hf e
  | flow o =>
    obtain ⟨h1, e1, e⟩ := bind_inv e
    obtain ⟨h2, e2, e⟩ := bind_inv e
    exact fresh_delete (fresh_delete (fresh_delete hf e1) e2) e

theorem fresh_run (prog : List Stmt) : ∀ {s s' : State}, Fresh s.heap → run s prog = .ok s' → Fresh s'.heap := by
  induction prog with
  | nil => intro s s' hf e; cases e; exact hf
  | cons c prog ih =>
    intro s s' hf e
    obtain ⟨s1, e1, e2⟩ := bind_inv e
    refine ih ?_ e2
    cases c with
    | new k => cases e1; exact fresh_construct (fresh_new hf)
    | call i c =>
      unfold step at e1
      dsimp only at e1
      split at e1
      · obtain ⟨r, er, e1⟩ := bind_inv e1
        cases e1
        exact fresh_call hf er
      · cases e1
    | del i =>
      unfold step at e1
      dsimp only at e1
      split at e1
      · obtain ⟨h1, er, e1⟩ := bind_inv e1
        obtain ⟨h2, er2, e1⟩ := bind_inv e1
        cases e1
        exact fresh_delete (fresh_destroy hf er) er2
      · cases e1

end Sg.Resources
