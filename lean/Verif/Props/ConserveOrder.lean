import Verif.Props.ConserveState
/-
Property C124: the order in which the calls of the conservative interpolator may be made.
-/
namespace Sg.Props
open Sg Sg.LinearSolve Sg.Triangulate Sg.QuadIntersect Sg.Conserve Sg.Spec

/-- Calls of the conservative interpolator. -/
inductive ConserveUse (F : Type) where
  | setDst (dims : Nat × Nat) (x y : List F)
  | setSrc (dims per : Nat × Nat) (x y : List F)
  | compute
  | apply (srcData dstData : List F)
  | reset
  | next
  | get

/-- What the caller has to keep in mind: numbers of cells of the grids, if set; the largest numbers of cells the grids had when weights
were computed; whether the iteration was begun by `reset` when there were weights. -/
structure ConserveSizes where
  src : Option Nat := none
  dst : Option Nat := none
  needSrc : Nat := 0
  needDst : Nat := 0
  begun : Prop := False

section
set_option linter.unusedSectionVars false
variable {F : Type} [Zero F] [One F] [Add F] [Sub F] [Mul F] [Div F] [Neg F] [LT F] [DecidableLT F] [LE F] [DecidableLE F]
  [NatCast F]

def ConserveUse.exec (g : Gels F) (sort : List (Pt F) → List (Pt F)) (mode : Mode) (o : Interp F) : ConserveUse F → Cxx (Interp F)
  | .setDst dims x y => o.setDstGrid dims x y
  | .setSrc dims per x y => o.setSrcGrid dims per x y
  | .compute => o.computeWeights g sort mode
  | .apply s d => do let _ ← o.apply s d; return o
  | .reset => o.reset .lenient
  | .next => do let r ← o.next .lenient; return r.1
  | .get => do let _ ← o.get; return o

/-- A sequence of calls. -/
def runConserve (g : Gels F) (sort : List (Pt F) → List (Pt F)) (mode : Mode) : Interp F → List (ConserveUse F) → Cxx (Interp F)
  | o, [] => .ok o
  | o, c :: cs => do let o' ← c.exec g sort mode o; runConserve g sort mode o' cs

/-- What a careful caller makes sure of before a call: grids have a node along each axis and the arrays the numbers they say; weights are
computed once both grids are set; the arrays given to `apply` have as many cells as any grids had when weights were computed; `next` and
`get` are called only once the iteration was begun with weights. -/
def ConserveUse.allowed (z : ConserveSizes) : ConserveUse F → Prop
  | .setDst dims x y => 1 ≤ dims.1 ∧ 1 ≤ dims.2 ∧ dims.1 * dims.2 ≤ x.length ∧ dims.1 * dims.2 ≤ y.length
  | .setSrc dims _ x y => 1 ≤ dims.1 ∧ 1 ≤ dims.2 ∧ dims.1 * dims.2 ≤ x.length ∧ dims.1 * dims.2 ≤ y.length
  | .compute => z.src ≠ none ∧ z.dst ≠ none
  | .apply s d => z.needSrc ≤ s.length ∧ z.needDst ≤ d.length
  | .reset => True
  | .next => z.begun
  | .get => z.begun

/-- What the caller knows afterwards; `has` says whether there are weights. -/
def ConserveUse.learn (z : ConserveSizes) (has : Prop) : ConserveUse F → ConserveSizes
  | .setDst dims _ _ => { z with dst := some ((dims.1 - 1) * (dims.2 - 1)) }
  | .setSrc dims _ _ _ => { z with src := some ((dims.1 - 1) * (dims.2 - 1)) }
  | .compute => { z with needSrc := max z.needSrc (z.src.getD 0), needDst := max z.needDst (z.dst.getD 0) }
  | .reset => { z with begun := has }
  | _ => z

/-- Every call is made with care. -/
def CarefulConserve (g : Gels F) (sort : List (Pt F) → List (Pt F)) (mode : Mode) :
    Interp F → ConserveSizes → List (ConserveUse F) → Prop
  | _, _, [] => True
  | o, z, c :: cs => c.allowed z ∧ ∀ o', c.exec g sort mode o = .ok o' →
      CarefulConserve g sort mode o' (c.learn z (o.weights ≠ [])) cs

/-- Invariant of careful use. -/
structure ConserveTracks (o : Interp F) (z : ConserveSizes) : Prop where
  src : ∀ m, z.src = some m → ∃ gr p, o.src = some gr ∧ gr.Has p ∧ gr.numCells = m
  dst : ∀ m, z.dst = some m → ∃ gr p, o.dst = some gr ∧ gr.Has p ∧ gr.numCells = m
  good : Conserve.Good o.weights
  table : ∀ e ∈ o.weights, e.1 < z.needDst ∧ ∀ p ∈ e.2, p.1 < z.needSrc
  pos : z.begun → ∃ key k l, o.it = some key ∧ o.it2 = some k ∧ (key, l) ∈ o.weights ∧ k < l.length

theorem srcStep_mem {g : Gels F} {sort : List (Pt F) → List (Pt F)} {mode : Mode} {src : Grid F} {i j : Nat} {dn : Fin 4 → Nat}
    {dq : Quad F} {a : F} {s s' : Work F × List (Nat × F)} (h : srcStep g sort mode src i dn dq a j s = .ok s') :
    ∀ p ∈ s'.2, p ∈ s.2 ∨ p.1 = j := by
  unfold srcStep at h
  simp only [bind, Except.bind, pure, Except.pure] at h
  split at h
  · cases h
  split at h
  · cases h
  split at h
  · split at h
    · cases h
    · split at h
      · split at h
        · cases h
        · cases h
          intro p hp
          rcases List.mem_append.mp hp with h | h
          · exact .inl h
          · rw [List.mem_singleton.mp h]; exact .inr rfl
      · cases h; exact fun p hp => .inl hp
  · cases h; exact fun p hp => .inl hp

theorem dstStep_mem {g : Gels F} {sort : List (Pt F) → List (Pt F)} {mode : Mode} {src dst : Grid F} {i : Nat}
    {s s' : Work F × Table F} (h : dstStep g sort mode src dst i s = .ok s') :
    ∀ e ∈ s'.2, e ∈ s.2 ∨ (e.1 = i ∧ ∀ p ∈ e.2, p.1 < src.numCells) := by
  unfold dstStep at h
  simp only [bind, Except.bind, pure, Except.pure] at h
  split at h
  · cases h
  split at h
  · cases h
  split at h
  · cases h
  rename_i r hr
  have hI := forN_inv_ok (fun j (s : Work F × List (Nat × F)) => ∀ p ∈ s.2, p.1 < j) _ _ _ _
    (by intro p hp; cases hp)
    (fun j s s' _ hI hst p hp => by
      rcases srcStep_mem hst p hp with h | h
      · exact Nat.lt_succ_of_lt (hI p h)
      · omega) hr
  cases h
  intro e he
  dsimp only at he
  split at he
  · rcases mem_insert he with rfl | he
    · exact .inr ⟨rfl, hI⟩
    · exact .inl he
  · exact .inl he

theorem computeWeights_mem {g : Gels F} {sort : List (Pt F) → List (Pt F)} {mode : Mode} {o o' : Interp F} {dst src : Grid F}
    (h1 : o.dst = some dst) (h2 : o.src = some src) (h : o.computeWeights g sort mode = .ok o') :
    (∀ e ∈ o'.weights, e ∈ o.weights ∨ (e.1 < dst.numCells ∧ ∀ p ∈ e.2, p.1 < src.numCells)) ∧ o'.dst = o.dst ∧ o'.src = o.src := by
  unfold Interp.computeWeights at h
  rw [h1, h2] at h
  simp only [bind, Except.bind, pure, Except.pure] at h
  split at h
  · cases h
  · rename_i s hs
    cases h
    refine ⟨?_, by simp [h1], by simp [h2]⟩
    exact forN_inv_ok (fun i (s : Work F × Table F) => ∀ e ∈ s.2, e ∈ o.weights ∨ (e.1 < i ∧ ∀ p ∈ e.2, p.1 < src.numCells))
      _ _ _ _ (fun e he => .inl he)
      (fun i s s' _ hI hst e he => by
        rcases dstStep_mem hst e he with h | ⟨h, h'⟩
        · rcases hI e h with h | ⟨h, h'⟩
          · exact .inl h
          · exact .inr ⟨Nat.lt_succ_of_lt h, h'⟩
        · exact .inr ⟨by omega, h'⟩) hs

theorem conserveTracks_new : ∃ o : Interp F, Conserve.new .lenient = .ok o ∧ ConserveTracks o {} :=
  ⟨_, rfl, ⟨(by intro m h; cases h), (by intro m h; cases h), good_nil, (by intro e h; cases h), fun h => h.elim⟩⟩

/-- `reset` leads to the first weight, if there is one. -/
theorem reset_pos {o : Interp F} (hg : Conserve.Good o.weights) :
    ∃ o', o.reset .lenient = .ok o' ∧ o'.src = o.src ∧ o'.dst = o.dst ∧ o'.weights = o.weights ∧
      (o.weights ≠ [] → ∃ key k l, o'.it = some key ∧ o'.it2 = some k ∧ (key, l) ∈ o.weights ∧ k < l.length) := by
  cases hw : o.weights with
  | nil => exact ⟨{ o with it := none, it2 := none }, by simp [Interp.reset, hw, beginAt, bind, Except.bind, pure, Except.pure], rfl, rfl,
      hw, fun h => absurd rfl h⟩
  | cons e t =>
    refine ⟨{ o with it := some e.1, it2 := some 0 }, by simp [Interp.reset, hw, beginAt, bind, Except.bind, pure, Except.pure], rfl, rfl,
      hw, fun _ => ⟨e.1, 0, e.2, rfl, rfl, List.mem_cons_self .., ?_⟩⟩
    exact List.length_pos_iff.mpr (hg.nonempty e (by rw [hw]; exact List.mem_cons_self ..))

theorem next_pos {o : Interp F} (hg : Conserve.Good o.weights)
    (hp : ∃ key k l, o.it = some key ∧ o.it2 = some k ∧ (key, l) ∈ o.weights ∧ k < l.length) :
    ∃ o' r, o.next .lenient = .ok (o', r) ∧ o'.src = o.src ∧ o'.dst = o.dst ∧ o'.weights = o.weights ∧
      ∃ key k l, o'.it = some key ∧ o'.it2 = some k ∧ (key, l) ∈ o.weights ∧ k < l.length := by
  obtain ⟨key, k, l, h1, h2, h3, h4⟩ := hp
  obtain ⟨pre, post, hw⟩ := List.append_of_mem h3
  have hs := hg.sorted
  have hat : Table.at o.weights key = some (key, l) := by rw [hw] at hs ⊢; exact at_mid hs
  have haf : Table.after o.weights key = post.head?.map Prod.fst := by rw [hw] at hs ⊢; exact after_mid hs
  have hcur : o.current = .ok (key, l, k) := by simp only [Interp.current, h1, h2, hat]
  unfold Interp.next
  simp only [hcur, bind, Except.bind, pure, Except.pure]
  rw [if_neg (by omega)]
  by_cases he : k + 1 = l.length
  · rw [if_pos he]
    cases post with
    | nil =>
      simp only [haf, List.head?_nil, Option.map_none, beginAt, if_true]
      obtain ⟨o', e, e1, e2, e3, e4⟩ := reset_pos (o := { o with it := none, it2 := none }) hg
      rw [e]
      exact ⟨o', 1, rfl, e1, e2, e3, e4 (by show o.weights ≠ []; rw [hw]; simp)⟩
    | cons e post =>
      simp only [haf, List.head?_cons, Option.map_some, beginAt, reduceCtorEq, if_false]
      refine ⟨_, 0, rfl, rfl, rfl, rfl, e.1, 0, e.2, rfl, rfl, by rw [hw]; simp, ?_⟩
      exact List.length_pos_iff.mpr (hg.nonempty e (by rw [hw]; simp))
  · rw [if_neg he]
    exact ⟨_, 0, rfl, rfl, rfl, rfl, key, k + 1, l, h1, rfl, h3, by omega⟩

theorem get_pos {o : Interp F} (hg : Conserve.Good o.weights)
    (hp : ∃ key k l, o.it = some key ∧ o.it2 = some k ∧ (key, l) ∈ o.weights ∧ k < l.length) : ∃ r, o.get = .ok r := by
  obtain ⟨key, k, l, h1, h2, h3, h4⟩ := hp
  obtain ⟨pre, post, hw⟩ := List.append_of_mem h3
  have hs := hg.sorted
  have hat : Table.at o.weights key = some (key, l) := by rw [hw] at hs ⊢; exact at_mid hs
  refine ⟨(key, l[k].1, l[k].2), ?_⟩
  unfold Interp.get
  simp only [Interp.current, h1, h2, hat, bind, Except.bind, List.getElem?_eq_getElem h4]
  rfl

/-- One call. -/
theorem exec_tracks (g : Gels F) (hg : ∀ r : GelsArgs F, (g r).a.length = r.a.length ∧ (g r).b.length = r.b.length)
    (sort : List (Pt F) → List (Pt F)) (mode : Mode) (c : ConserveUse F) (o : Interp F) (z : ConserveSizes)
    (h : ConserveTracks o z) (hc : c.allowed z) :
    (∃ o', c.exec g sort mode o = .ok o' ∧ ConserveTracks o' (c.learn z (o.weights ≠ []))) ∨
      (c = .compute ∧ ∃ e, c.exec g sort mode o = .error e ∧ ∃ pts, hullArea mode (sort pts) = .error e) := by
  cases c with
  | setDst dims x y =>
    obtain ⟨h1, h2, h3, h4⟩ := hc
    obtain ⟨gr, e, -, hh, hn⟩ := makeGrid_has dims ⟨h1, h2⟩ x y h3 h4
    refine .inl ⟨{ o with dst := some gr }, by simp only [ConserveUse.exec, Interp.setDstGrid, e]; rfl, h.src, ?_, h.good, h.table, h.pos⟩
    intro m hm
    refine ⟨gr, _, rfl, hh, ?_⟩
    have hm' : some ((dims.1 - 1) * (dims.2 - 1)) = some m := hm
    rw [hn, cellCount]; exact Option.some.inj hm'
  | setSrc dims per x y =>
    obtain ⟨h1, h2, h3, h4⟩ := hc
    obtain ⟨gr, e, -, hh, hn⟩ := makeGrid_has dims ⟨h1, h2⟩ x y h3 h4
    refine .inl ⟨{ o with src := some gr }, by simp only [ConserveUse.exec, Interp.setSrcGrid, e]; rfl, ?_, h.dst, h.good, h.table, h.pos⟩
    intro m hm
    refine ⟨gr, _, rfl, hh, ?_⟩
    have hm' : some ((dims.1 - 1) * (dims.2 - 1)) = some m := hm
    rw [hn, cellCount]; exact Option.some.inj hm'
  | compute =>
    obtain ⟨h1, h2⟩ := hc
    obtain ⟨m, hm⟩ := Option.ne_none_iff_exists'.mp h1
    obtain ⟨m', hm'⟩ := Option.ne_none_iff_exists'.mp h2
    obtain ⟨gs, ps, es, hs, ns⟩ := h.src m hm
    obtain ⟨gd, pd, ed, hd, nd⟩ := h.dst m' hm'
    rcases computeWeights_safe hg sort mode hd hs o ed es with ⟨o', e⟩ | ⟨e, e', hp⟩
    · left
      refine ⟨o', e, ?_⟩
      obtain ⟨hmem, e1, e2⟩ := computeWeights_mem ed es e
      obtain ⟨hg', hkeep, i1, i2⟩ := computeWeights_good e h.good
      refine ⟨?_, ?_, hg', ?_, ?_⟩
      · rw [e2]; exact h.src
      · rw [e1]; exact h.dst
      · intro q hq
        show q.1 < max z.needDst (z.dst.getD 0) ∧ ∀ p ∈ q.2, p.1 < max z.needSrc (z.src.getD 0)
        rw [hm, hm', Option.getD_some, Option.getD_some]
        rcases hmem q hq with hq | ⟨hq, hq'⟩
        · have := h.table q hq
          exact ⟨lt_of_lt_of_le this.1 (le_max_left _ _), fun p hp => lt_of_lt_of_le (this.2 p hp) (le_max_left _ _)⟩
        · rw [nd] at hq
          rw [ns] at hq'
          exact ⟨lt_of_lt_of_le hq (le_max_right _ _), fun p hp => lt_of_lt_of_le (hq' p hp) (le_max_right _ _)⟩
      · intro hb
        obtain ⟨key, k, l, a, b, c, d⟩ := h.pos hb
        exact ⟨key, k, l, i1.trans a, i2.trans b, hkeep _ c, d⟩
    · exact .inr ⟨rfl, e, e', hp⟩
  | apply s d =>
    obtain ⟨h1, h2⟩ := hc
    obtain ⟨d', e, -⟩ := Conserve.apply_ok o s d h.good.sorted fun e he =>
      ⟨lt_of_lt_of_le (h.table e he).1 h2, fun p hp => lt_of_lt_of_le ((h.table e he).2 p hp) h1⟩
    exact .inl ⟨o, by simp only [ConserveUse.exec, e, bind, Except.bind, pure, Except.pure], h⟩
  | reset =>
    obtain ⟨o', e, e1, e2, e3, e4⟩ := reset_pos h.good
    refine .inl ⟨o', e, by rw [e1]; exact h.src, by rw [e2]; exact h.dst, by rw [e3]; exact h.good, by rw [e3]; exact h.table, ?_⟩
    intro hb
    rw [e3]
    exact e4 hb
  | next =>
    obtain ⟨o', r, e, e1, e2, e3, e4⟩ := next_pos h.good (h.pos hc)
    refine .inl ⟨o', by simp only [ConserveUse.exec, e, bind, Except.bind, pure, Except.pure],
      by rw [e1]; exact h.src, by rw [e2]; exact h.dst, by rw [e3]; exact h.good, by rw [e3]; exact h.table, ?_⟩
    intro hb
    rw [e3]
    exact e4
  | get =>
    obtain ⟨r, e⟩ := get_pos h.good (h.pos hc)
    exact .inl ⟨o, by simp only [ConserveUse.exec, e, bind, Except.bind, pure, Except.pure], h⟩

theorem run_conserve (g : Gels F) (hg : ∀ r : GelsArgs F, (g r).a.length = r.a.length ∧ (g r).b.length = r.b.length)
    (sort : List (Pt F) → List (Pt F)) (mode : Mode) : ∀ (cs : List (ConserveUse F)) (o : Interp F) (z : ConserveSizes),
    ConserveTracks o z → CarefulConserve g sort mode o z cs →
    (∃ o', runConserve g sort mode o cs = .ok o') ∨
      ∃ e, runConserve g sort mode o cs = .error e ∧ ∃ pts, hullArea mode (sort pts) = .error e
  | [], o, _, _, _ => .inl ⟨o, rfl⟩
  | c :: cs, o, z, h, hc => by
    simp only [runConserve, bind, Except.bind]
    rcases exec_tracks g hg sort mode c o z h hc.1 with ⟨o', e, h'⟩ | ⟨-, e, e', hp⟩
    · rw [e]
      exact run_conserve g hg sort mode cs o' _ h' (hc.2 o' e)
    · rw [e']
      exact .inr ⟨e, rfl, hp⟩

/-- C124: calls made with care, in any order and any number, return; the one thing that can be undefined is the triangulation of the points
of an overlap in `computeWeights` (C48).  Taking the begin of the vector of the end of an empty table is tolerated (C62). -/
theorem C124_careful (g : Gels F) (hg : ∀ r : GelsArgs F, (g r).a.length = r.a.length ∧ (g r).b.length = r.b.length)
    (sort : List (Pt F) → List (Pt F)) (mode : Mode) (cs : List (ConserveUse F)) (o : Interp F)
    (ho : Conserve.new .lenient = .ok o) (hc : CarefulConserve g sort mode o {} cs) :
    (∃ o', runConserve g sort mode o cs = .ok o') ∨
      ∃ e, runConserve g sort mode o cs = .error e ∧ ∃ pts, hullArea mode (sort pts) = .error e := by
  obtain ⟨o1, h1, h2⟩ := conserveTracks_new (F := F)
  rw [ho] at h1
  cases h1
  exact run_conserve g hg sort mode cs o {} h2 hc

theorem inner_total (s : List F) (k : Nat) : ∀ (l : List (Nat × F)) (d : List F), k < d.length →
    (∃ d', d'.length = d.length ∧ (∀ p ∈ l, p.1 < s.length) ∧ l.foldlM (fun d p => do
      let v ← vget d k
      let x ← vget s p.1
      vset d k (v + p.2 * x)) d = Except.ok d') ∨
    ((¬ ∀ p ∈ l, p.1 < s.length) ∧ l.foldlM (fun d p => do
      let v ← vget d k
      let x ← vget s p.1
      vset d k (v + p.2 * x)) d = Except.error UB.outOfBounds)
  | [], d, _ => .inl ⟨d, rfl, by simp, rfl⟩
  | p :: l, d, hk => by
    simp only [List.foldlM_cons, vget_ok hk, bind, Except.bind]
    by_cases hp : p.1 < s.length
    · simp only [vget_ok hp, vset_ok hk]
      rcases inner_total s k l (d.set k (d[k] + p.2 * s[p.1])) (by simpa using hk) with ⟨d', e1, e2, e3⟩ | ⟨e1, e2⟩
      · refine .inl ⟨d', by simpa using e1, ?_, e3⟩
        intro q hq
        rcases List.mem_cons.mp hq with rfl | hq
        · exact hp
        · exact e2 q hq
      · exact .inr ⟨fun h => e1 fun q hq => h q (List.mem_cons_of_mem _ hq), e2⟩
    · right
      refine ⟨fun h => hp (h p (List.mem_cons_self ..)), ?_⟩
      simp only [vget, List.getElem?_eq_none (Nat.le_of_not_lt hp)]

theorem apply_total (s : List F) : ∀ (t : Table F) (d : List F),
    if ∀ e ∈ t, e.1 < d.length ∧ ∀ p ∈ e.2, p.1 < s.length then
      ∃ d', Interp.apply { src := none, dst := none, weights := t, it := none, it2 := none } s d = .ok d'
    else Interp.apply { src := none, dst := none, weights := t, it := none, it2 := none } s d = .error .outOfBounds
  | [], d => by simp [Interp.apply]; exact ⟨d, rfl⟩
  | e :: t, d => by
    simp only [Interp.apply, List.foldlM_cons, bind, Except.bind]
    by_cases hk : e.1 < d.length
    · simp only [vset_ok hk]
      rcases inner_total s e.1 e.2 (d.set e.1 0) (by simpa using hk) with ⟨d', e1, e2, e3⟩ | ⟨e1, e2⟩
      · simp only [bind, Except.bind] at e3
        rw [e3]
        have ih := apply_total s t d'
        simp only [Interp.apply, bind, Except.bind] at ih
        have hl : d'.length = d.length := by simpa using e1
        rw [hl] at ih
        by_cases hall : ∀ e ∈ t, e.1 < d.length ∧ ∀ p ∈ e.2, p.1 < s.length
        · rw [if_pos hall] at ih
          rw [if_pos]
          · exact ih
          · intro q hq
            rcases List.mem_cons.mp hq with rfl | hq
            · exact ⟨hk, e2⟩
            · exact hall q hq
        · rw [if_neg hall] at ih
          rw [if_neg fun h => hall fun q hq => h q (List.mem_cons_of_mem _ hq)]
          exact ih
      · simp only [bind, Except.bind] at e2
        rw [e2, if_neg fun h => e1 (h e (List.mem_cons_self ..)).2]
    · rw [if_neg fun h => hk (h e (List.mem_cons_self ..)).1]
      simp only [vset, if_neg hk]

/-- C124: what care is needed for.  Without a destination grid, or without a source grid for a destination grid with cells,
`computeWeights` reads a number that was never written; `next` and `get` before any weights are undefined whatever was done before; arrays
that lack a cell of the table make `apply` undefined. -/
theorem C124_unset (g : Gels F) (sort : List (Pt F) → List (Pt F)) (mode : Mode) (o : Interp F) :
    (o.dst = none ∨ (o.src = none ∧ ∃ d, o.dst = some d ∧ d.numCells ≠ 0) → o.computeWeights g sort mode = .error .uninit) ∧
    (o.weights = [] → o.next .lenient = .error .badIterator ∧ o.get = .error .badIterator) ∧
    (∀ s d, (∃ e ∈ o.weights, d.length ≤ e.1 ∨ ∃ p ∈ e.2, s.length ≤ p.1) → o.apply s d = .error .outOfBounds) := by
  refine ⟨?_, ?_, ?_⟩
  · rintro (h | ⟨h, d, h1, h2⟩)
    · simp only [Interp.computeWeights, h]
    · simp only [Interp.computeWeights, h, h1, if_neg h2]
  · intro h
    have hc : o.current = .error .badIterator := by
      unfold Interp.current
      split
      · rw [h]; rfl
      · rfl
    simp only [Interp.next, Interp.get, hc, bind, Except.bind, and_self]
  · intro s d h
    have := apply_total s o.weights d
    rw [if_neg] at this
    · exact this
    · rintro h'
      obtain ⟨e, he, hb⟩ := h
      rcases hb with hb | ⟨p, hp, hb⟩
      · have := (h' e he).1; omega
      · have := (h' e he).2 p hp; omega

/-! ### Example -/

def ConserveUse.allowedB (z : ConserveSizes) (begun : Bool) : ConserveUse F → Bool
  | .setDst dims x y => decide (1 ≤ dims.1 ∧ 1 ≤ dims.2 ∧ dims.1 * dims.2 ≤ x.length ∧ dims.1 * dims.2 ≤ y.length)
  | .setSrc dims _ x y => decide (1 ≤ dims.1 ∧ 1 ≤ dims.2 ∧ dims.1 * dims.2 ≤ x.length ∧ dims.1 * dims.2 ≤ y.length)
  | .compute => z.src.isSome && z.dst.isSome
  | .apply s d => decide (z.needSrc ≤ s.length ∧ z.needDst ≤ d.length)
  | .reset => true
  | .next => begun
  | .get => begun

/-- A check of `CarefulConserve` by running the calls; `z.begun` is not used. -/
def carefulB (g : Gels F) (sort : List (Pt F) → List (Pt F)) (mode : Mode) : Interp F → ConserveSizes → Bool → List (ConserveUse F) → Bool
  | _, _, _, [] => true
  | o, z, b, c :: cs => c.allowedB z b &&
      match c.exec g sort mode o with
      | .ok o' => carefulB g sort mode o' (c.learn z False) (match c with | .reset => !o.weights.isEmpty | _ => b) cs
      | .error _ => true

theorem allowed_of_b {z : ConserveSizes} {b : Bool} {c : ConserveUse F} (h : c.allowedB z b = true) :
    c.allowed { z with begun := b = true } := by
  cases c <;> simp_all [ConserveUse.allowed, ConserveUse.allowedB, Option.isSome_iff_ne_none]

theorem careful_of_b (g : Gels F) (sort : List (Pt F) → List (Pt F)) (mode : Mode) : ∀ (cs : List (ConserveUse F)) (o : Interp F)
    (z : ConserveSizes) (b : Bool), carefulB g sort mode o z b cs = true →
    CarefulConserve g sort mode o { z with begun := b = true } cs
  | [], _, _, _, _ => trivial
  | c :: cs, o, z, b, h => by
    simp only [carefulB, Bool.and_eq_true] at h
    refine ⟨allowed_of_b h.1, fun o' he => ?_⟩
    have h2 := h.2
    rw [he] at h2
    have := careful_of_b g sort mode cs o' _ _ h2
    cases c <;> simpa [ConserveUse.learn] using this

end

open Sg.Witness in
/-- Two cells onto one; the weights are computed, listed and applied, the source grid is then replaced by one with a single cell, and the
old weights are applied once more. -/
def conserveUses : List (ConserveUse ℚ) :=
  [.setDst (2, 2) [0, 2, 0, 2] [0, 0, 2, 2], .setSrc (2, 3) (0, 0) [0, 1, 2, 0, 1, 2] [0, 0, 0, 2, 2, 2], .compute, .reset, .get, .next, .get,
   .apply [3, 4] [0], .setSrc (2, 2) (0, 0) [0, 2, 0, 2] [0, 0, 2, 2], .apply [3, 4] [0], .next]

open Sg.Witness in
example : ∃ o : Interp ℚ, Conserve.new .lenient = .ok o ∧ CarefulConserve cramerGels stdSort .keptBuffer o {} conserveUses ∧
    ∃ o', runConserve cramerGels stdSort .keptBuffer o conserveUses = .ok o' ∧ o'.weights ≠ [] := by
  refine ⟨_, rfl, ?_, ?_⟩
  · have := careful_of_b cramerGels stdSort .keptBuffer conserveUses
      { src := none, dst := none, weights := [], it := none, it2 := none } {} false (by decide +kernel)
    simpa using this
  · have : (runConserve cramerGels stdSort .keptBuffer { src := none, dst := none, weights := [], it := none, it2 := none }
        conserveUses).toOption.any (fun o => !o.weights.isEmpty) = true := by decide +kernel
    revert this
    cases h : runConserve cramerGels stdSort .keptBuffer { src := none, dst := none, weights := [], it := none, it2 := none } conserveUses with
    | error e => intro h; cases h
    | ok o' => intro h'; exact ⟨o', h, by simpa [Except.toOption] using h'⟩

end Sg.Props
