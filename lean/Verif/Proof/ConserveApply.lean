import Verif.Spec.Cells
import Verif.Spec.Conserve
import Verif.Proof.ConserveTable
/- Application of the weights, iteration over them, and where undefined behaviour can come from. -/
namespace Sg.Conserve
open Sg.LinearSolve Sg.Triangulate Sg.QuadIntersect Sg.Spec

section
set_option linter.unusedSectionVars false
variable {F : Type} [Zero F] [One F] [Add F] [Sub F] [Mul F] [Div F] [Neg F] [LT F] [DecidableLT F] [LE F] [DecidableLE F]
  [NatCast F]

/-! ### apply -/

theorem apply_inner (s : List F) (k : Nat) (l : List (Nat × F)) : ∀ d : List F, k < d.length → (∀ p ∈ l, p.1 < s.length) →
    l.foldlM (fun d p => do
      let v ← vget d k
      let x ← vget s p.1
      vset d k (v + p.2 * x)) d =
    (.ok (d.set k (l.foldl (fun acc p => acc + p.2 * s.getD p.1 0) (d.getD k 0))) : Cxx (List F)) := by
  induction l with
  | nil =>
    intro d hk _
    have : d.set k (d.getD k 0) = d := by
      apply List.ext_getElem?
      intro i
      rw [List.getElem?_set]
      split
      · subst_vars
        rw [getD_of_lt hk]
      · rfl
    show Except.ok d = _
    rw [List.foldl_nil, this]
  | cons p l ih =>
    intro d hk hs
    have h1 : vget d k = .ok (d.getD k 0) := vget_eq_ok.mpr (getD_of_lt hk)
    have h2 : vget s p.1 = .ok (s.getD p.1 0) := vget_eq_ok.mpr (getD_of_lt (hs p (List.mem_cons_self ..)))
    rw [List.foldlM_cons]
    simp only [h1, h2, bind, Except.bind, vset_ok hk] at ih ⊢
    rw [ih _ (by simpa using hk) fun q hq => hs q (List.mem_cons_of_mem _ hq)]
    rw [List.set_set, List.foldl_cons, List.getD_eq_getElem?_getD, List.getElem?_set_self hk]
    rfl

theorem apply_fold (s : List F) (t : Table F) : ∀ d : List F, (∀ e ∈ t, e.1 < d.length ∧ ∀ p ∈ e.2, p.1 < s.length) →
    t.foldlM (fun d e => do
      let d ← vset d e.1 0
      e.2.foldlM (fun d p => do
        let v ← vget d e.1
        let x ← vget s p.1
        vset d e.1 (v + p.2 * x)) d) d =
    (.ok (t.foldl (fun d e => d.set e.1 (weightedSum (fun k => s.getD k 0) e.2)) d) : Cxx (List F)) := by
  induction t with
  | nil => intro d _; rfl
  | cons e t ih =>
    intro d h
    obtain ⟨h1, h2⟩ := h e (List.mem_cons_self ..)
    rw [List.foldlM_cons]
    have := apply_inner s e.1 e.2 (d.set e.1 0) (by simpa using h1) h2
    simp only [bind, Except.bind, vset_ok h1] at this ih ⊢
    rw [this]
    simp only
    rw [ih _ fun e' h' => by simpa using h e' (List.mem_cons_of_mem _ h')]
    rw [List.set_set, List.foldl_cons, List.getD_eq_getElem?_getD, List.getElem?_set_self h1]
    rfl

theorem lookup_none_of_lt {t : Table F} {k : Nat} (h : ∀ e ∈ t, k < e.1) : t.lookup k = none := by
  rw [List.lookup_eq_none_iff]
  intro e he
  have := h e he
  simp; omega

theorem fold_set (f : List (Nat × F) → F) (t : Table F) : ∀ d : List F, t.Pairwise (fun a b => a.1 < b.1) →
    (∀ e ∈ t, e.1 < d.length) → (t.foldl (fun d e => d.set e.1 (f e.2)) d).length = d.length ∧
    ∀ i, (t.foldl (fun d e => d.set e.1 (f e.2)) d)[i]? = match t.lookup i with | some l => some (f l) | none => d[i]? := by
  induction t with
  | nil => intro d _ _; exact ⟨rfl, fun _ => rfl⟩
  | cons e t ih =>
    intro d hp hd
    obtain ⟨hh, ht⟩ := List.pairwise_cons.mp hp
    obtain ⟨hl, hi⟩ := ih (d.set e.1 (f e.2)) ht fun e' h' => by simpa using hd e' (List.mem_cons_of_mem _ h')
    refine ⟨by rw [List.foldl_cons, hl]; simp, ?_⟩
    intro i
    rw [List.foldl_cons, hi]
    obtain ⟨k, l⟩ := e
    have hk : k < d.length := hd _ (List.mem_cons_self ..)
    by_cases hik : i = k
    · subst hik
      rw [lookup_none_of_lt hh]
      simp only [List.lookup_cons_self]
      exact List.getElem?_set_self hk
    · rw [List.lookup_cons, beq_false_of_ne hik]
      cases t.lookup i with
      | some l' => rfl
      | none => exact List.getElem?_set_ne (by dsimp only; omega)

theorem apply_ok (o : Interp F) (s d : List F) (hp : o.weights.Pairwise fun a b => a.1 < b.1)
    (h : ∀ e ∈ o.weights, e.1 < d.length ∧ ∀ p ∈ e.2, p.1 < s.length) :
    ∃ d', o.apply s d = .ok d' ∧ d'.length = d.length ∧
      ∀ i, d'[i]? = match o.weights.lookup i with | some l => some (weightedSum (fun k => s.getD k 0) l) | none => d[i]? := by
  obtain ⟨h1, h2⟩ := fold_set (weightedSum fun k => s.getD k 0) o.weights d hp fun e he => (h e he).1
  exact ⟨_, apply_fold s o.weights d h, h1, h2⟩

/-! ### Sorted tables -/

theorem lookup_insert {t : Table F} {k : Nat} {v : List (Nat × F)} (h : t.Pairwise (fun a b => a.1 < b.1)) (i : Nat) :
    (Table.insert t k v).lookup i = match t.lookup i with | some l => some l | none => if i = k then some v else none := by
  induction t with
  | nil =>
    show List.lookup i [(k, v)] = _
    by_cases hik : i = k
    · subst hik; simp
    · simp [List.lookup_cons, beq_false_of_ne hik, hik]
  | cons e t ih =>
    obtain ⟨hh, ht⟩ := List.pairwise_cons.mp h
    obtain ⟨k', l'⟩ := e
    unfold Table.insert
    split
    · rename_i hlt
      dsimp only at hlt hh
      by_cases hik : i = k
      · subst hik
        rw [List.lookup_cons_self, if_pos rfl, List.lookup_cons, beq_false_of_ne (by omega),
          lookup_none_of_lt fun e he => by have := hh e he; omega]
      · rw [List.lookup_cons, beq_false_of_ne hik, if_neg hik]
        cases List.lookup i ((k', l') :: t) <;> rfl
    · split
      · rename_i h1 h2
        dsimp only at h1 h2
        rw [List.lookup_cons, List.lookup_cons, ih ht]
        by_cases hik : i = k'
        · subst hik; simp
        · simp [beq_false_of_ne hik]
      · rename_i h1 h2
        dsimp only at h1 h2
        have : k = k' := by omega
        subst this
        by_cases hik : i = k
        · subst hik; simp
        · rw [if_neg hik]
          cases List.lookup i ((k, l') :: t) <;> rfl

theorem lookup_foldl_insert (t : List (Nat × List (Nat × F))) (i : Nat) : ∀ t0 : Table F,
    t0.Pairwise (fun a b => a.1 < b.1) → t.Pairwise (fun a b => a.1 < b.1) →
    (t.foldl (fun t e => Table.insert t e.1 e.2) t0).lookup i =
      match t0.lookup i with | some l => some l | none => t.lookup i := by
  induction t with
  | nil => intro t0 _ _; simp only [List.foldl_nil, List.lookup_nil]; cases List.lookup i t0 <;> rfl
  | cons e t ih =>
    intro t0 h0 h
    obtain ⟨hh, ht⟩ := List.pairwise_cons.mp h
    rw [List.foldl_cons, ih _ (insert_sorted h0) ht, lookup_insert h0]
    cases List.lookup i t0 with
    | some l => rfl
    | none =>
      obtain ⟨k, l⟩ := e
      by_cases hik : i = k
      · subst hik; simp
      · simp [List.lookup_cons, beq_false_of_ne hik, hik]

/-- Sorted, and no entry without weights. -/
structure Good (t : Table F) : Prop where
  sorted : t.Pairwise fun a b => a.1 < b.1
  nonempty : ∀ e ∈ t, e.2 ≠ []

theorem good_nil : Good ([] : Table F) := ⟨List.Pairwise.nil, by intro e he; cases he⟩

theorem dstStep_good {g : Gels F} {sort : List (Pt F) → List (Pt F)} {mode : Mode} {src dst : Grid F} {i : Nat}
    {s s' : Work F × Table F} (h : dstStep g sort mode src dst i s = .ok s') (hs : Good s.2) :
    Good s'.2 ∧ ∀ e ∈ s.2, e ∈ s'.2 := by
  unfold dstStep at h
  simp only [bind, Except.bind, pure, Except.pure] at h
  split at h
  · cases h
  split at h
  · cases h
  split at h
  · cases h
  cases h
  dsimp only
  split
  · rename_i h0
    refine ⟨⟨insert_sorted hs.sorted, ?_⟩, fun e he => insert_keeps he⟩
    intro e he
    rcases mem_insert he with rfl | he
    · exact List.length_pos_iff.mp h0
    · exact hs.nonempty e he
  · exact ⟨hs, fun e he => he⟩

theorem computeWeights_good {g : Gels F} {sort : List (Pt F) → List (Pt F)} {mode : Mode} {o o' : Interp F}
    (h : o.computeWeights g sort mode = .ok o') (ho : Good o.weights) :
    Good o'.weights ∧ (∀ e ∈ o.weights, e ∈ o'.weights) ∧ o'.it = o.it ∧ o'.it2 = o.it2 := by
  unfold Interp.computeWeights at h
  split at h
  · rename_i dst src _ _
    simp only [bind, Except.bind, pure, Except.pure] at h
    split at h
    · cases h
    · rename_i s hs
      cases h
      have := forN_inv_ok (fun _ (s : Work F × Table F) => Good s.2 ∧ ∀ e ∈ o.weights, e ∈ s.2) _ _ _ _
        ⟨ho, fun e he => he⟩ (fun i s s' _ hI hst => by
          have := dstStep_good hst hI.1
          exact ⟨this.1, fun e he => this.2 e (hI.2 e he)⟩) hs
      exact ⟨this.1, this.2, rfl, rfl⟩
  · split at h
    · cases h
      exact ⟨ho, fun e he => he, rfl, rfl⟩
    · cases h
  · cases h

/-! ### Iteration -/

theorem at_mid {pre post : Table F} {k : Nat} {l : List (Nat × F)}
    (h : (pre ++ (k, l) :: post).Pairwise fun a b => a.1 < b.1) : Table.at (pre ++ (k, l) :: post) k = some (k, l) := by
  unfold Table.at
  rw [List.find?_append]
  have : pre.find? (fun e => e.1 == k) = none := by
    rw [List.find?_eq_none]
    intro e he
    have := (List.pairwise_append.mp h).2.2 e he (k, l) (List.mem_cons_self ..)
    simp; omega
  rw [this]
  simp

theorem after_mid {pre post : Table F} {k : Nat} {l : List (Nat × F)}
    (h : (pre ++ (k, l) :: post).Pairwise fun a b => a.1 < b.1) :
    Table.after (pre ++ (k, l) :: post) k = post.head?.map Prod.fst := by
  unfold Table.after
  rw [List.find?_append]
  have : pre.find? (fun e => decide (k < e.1)) = none := by
    rw [List.find?_eq_none]
    intro e he
    have := (List.pairwise_append.mp h).2.2 e he (k, l) (List.mem_cons_self ..)
    simp; omega
  rw [this, List.find?_cons]
  simp only [Nat.lt_irrefl, decide_false, Option.none_or]
  cases post with
  | nil => rfl
  | cons e post =>
    have := (List.pairwise_cons.mp (List.pairwise_append.mp h).2.1).1 e (List.mem_cons_self ..)
    rw [List.find?_cons]
    simp [this]

theorem drains_from (o : Interp F) (ho : Good o.weights) (o0 : Interp F) (h0 : o.reset .lenient = .ok o0) (post : Table F) :
    ∀ (pre : Table F) (k : Nat) (l : List (Nat × F)), o.weights = pre ++ (k, l) :: post →
    ∀ (done rest : List (Nat × F)), l = done ++ rest → rest ≠ [] →
    Drains .lenient { o with it := some k, it2 := some done.length }
      ((rest.map fun p => (k, p.1, p.2)) ++ triples post) o0 := by
  induction post with
  | nil =>
    intro pre k l hw done rest
    induction rest generalizing done with
    | nil => intro _ h; exact absurd rfl h
    | cons p rest ih =>
      intro hl _
      have hsort := ho.sorted
      have hat : Table.at o.weights k = some (k, l) := by rw [hw] at hsort ⊢; exact at_mid hsort
      have haf : Table.after o.weights k = none := by rw [hw] at hsort ⊢; exact after_mid hsort
      have hcur : Interp.current { o with it := some k, it2 := some done.length } = .ok (k, l, done.length) := by
        simp only [Interp.current, hat]
      have hget : Interp.get { o with it := some k, it2 := some done.length } = .ok (k, p.1, p.2) := by
        simp only [Interp.get, hcur, bind, Except.bind, hl, List.getElem?_append_right (Nat.le_refl _), Nat.sub_self,
          List.getElem?_cons_zero]
        rfl
      have hlen : l.length = done.length + (rest.length + 1) := by rw [hl]; simp
      cases rest with
      | nil =>
        refine Drains.last hget ?_
        have h1 : ¬ l.length ≤ done.length := by omega
        have h2 : done.length + 1 = l.length := by rw [hlen]; rfl
        simp only [Interp.next, hcur, bind, Except.bind, if_neg h1, if_pos h2, haf, beginAt, if_true]
        simp only [Interp.reset, bind, Except.bind] at h0 ⊢
        rw [h0]
        rfl
      | cons p' rest =>
        have hn : Interp.next .lenient { o with it := some k, it2 := some done.length } =
            .ok ({ o with it := some k, it2 := some (done ++ [p]).length }, 0) := by
          have h1 : ¬ l.length ≤ done.length := by omega
          have h2 : ¬ done.length + 1 = l.length := by rw [hlen]; simp
          simp only [Interp.next, hcur, bind, Except.bind, if_neg h1, if_neg h2, List.length_append, List.length_singleton]
          rfl
        exact Drains.more hget hn (ih (done ++ [p]) (by rw [hl]; simp) (by simp))
  | cons e post ihp =>
    intro pre k l hw done rest
    induction rest generalizing done with
    | nil => intro _ h; exact absurd rfl h
    | cons p rest ih =>
      intro hl _
      have hsort := ho.sorted
      have hat : Table.at o.weights k = some (k, l) := by rw [hw] at hsort ⊢; exact at_mid hsort
      have haf : Table.after o.weights k = some e.1 := by rw [hw] at hsort ⊢; exact after_mid hsort
      have hcur : Interp.current { o with it := some k, it2 := some done.length } = .ok (k, l, done.length) := by
        simp only [Interp.current, hat]
      have hget : Interp.get { o with it := some k, it2 := some done.length } = .ok (k, p.1, p.2) := by
        simp only [Interp.get, hcur, bind, Except.bind, hl, List.getElem?_append_right (Nat.le_refl _), Nat.sub_self,
          List.getElem?_cons_zero]
        rfl
      have hlen : l.length = done.length + (rest.length + 1) := by rw [hl]; simp
      cases rest with
      | nil =>
        have hn : Interp.next .lenient { o with it := some k, it2 := some done.length } =
            .ok ({ o with it := some e.1, it2 := some 0 }, 0) := by
          have h1 : ¬ l.length ≤ done.length := by omega
          have h2 : done.length + 1 = l.length := by rw [hlen]; rfl
          simp only [Interp.next, hcur, bind, Except.bind, if_neg h1, if_pos h2, haf, beginAt, reduceCtorEq, if_false]
          rfl
        have := ihp (pre ++ [(k, l)]) e.1 e.2 (by rw [hw]; simp) [] e.2 rfl (ho.nonempty e (by rw [hw]; simp))
        exact Drains.more hget hn this
      | cons p' rest =>
        have hn : Interp.next .lenient { o with it := some k, it2 := some done.length } =
            .ok ({ o with it := some k, it2 := some (done ++ [p]).length }, 0) := by
          have h1 : ¬ l.length ≤ done.length := by omega
          have h2 : ¬ done.length + 1 = l.length := by rw [hlen]; simp
          simp only [Interp.next, hcur, bind, Except.bind, if_neg h1, if_neg h2, List.length_append, List.length_singleton]
          rfl
        exact Drains.more hget hn (ih (done ++ [p]) (by rw [hl]; simp) (by simp))

/-! ### Undefined behaviour of computeWeights comes from the triangulation -/

theorem dstNodeStep_safe {g : Gels F} (hg : KeepsSizes g) (j a : Nat) (p : Pt F) (q : Quad F) (w : Work F)
    (hr : Ready w.1.slvr) : ∃ w', dstNodeStep g j a p q w = .ok w' ∧ Ready w'.1.slvr := by
  unfold dstNodeStep
  split
  · exact ⟨_, rfl, hr⟩
  · obtain ⟨sl, e, hr'⟩ := inCell_ok g hg w.1.slvr hr p q
    rw [e]
    simp only [bind, Except.bind]
    split
    · exact ⟨_, rfl, hr'⟩
    · exact ⟨_, rfl, hr'⟩

theorem srcNodeStep_safe {g : Gels F} (hg : KeepsSizes g) (j a : Nat) (p : Pt F) (q : Quad F) (w : Work F)
    (hr : Ready w.1.slvr) : ∃ w', srcNodeStep g j a p q w = .ok w' ∧ Ready w'.1.slvr := by
  unfold srcNodeStep
  split
  · exact ⟨_, rfl, hr⟩
  · obtain ⟨sl, e, hr'⟩ := inCell_ok g hg w.1.slvr hr p q
    rw [e]
    simp only [bind, Except.bind]
    split
    · exact ⟨_, rfl, hr'⟩
    · exact ⟨_, rfl, hr'⟩

theorem edgeStep_safe {g : Gels F} (hg : KeepsSizes g) (key : EdgeKey) (a0 a1 b0 b1 : Pt F) (w : Work F)
    (hr : Ready w.1.slvr) : ∃ w', edgeStep g key a0 a1 b0 b1 w = .ok w' ∧ Ready w'.1.slvr := by
  unfold edgeStep
  split
  · exact ⟨_, rfl, hr⟩
  · split
    · exact ⟨_, rfl, hr⟩
    · obtain ⟨sl, e, hr'⟩ := edgeX_ok g hg w.1 hr a0 a1 b0 b1
      rw [e]
      simp only [bind, Except.bind]
      split
      · exact ⟨_, rfl, hr'⟩
      · exact ⟨_, rfl, hr'⟩

theorem pairStep_safe {g : Gels F} (hg : KeepsSizes g) (i j : Nat) (dn : Fin 4 → Nat) (dq : Quad F) (sn : Fin 4 → Nat)
    (sq : Quad F) (w : Work F) (hr : Ready w.1.slvr) : ∃ w', pairStep g i j dn dq sn sq w = .ok w' ∧ Ready w'.1.slvr := by
  unfold pairStep
  refine forN_inv (fun _ (w : Work F) => Ready w.1.slvr) _ 4 w hr ?_
  intro k w _ hr
  obtain ⟨w1, e1, h1⟩ := dstNodeStep_safe hg j (dn (node k)) (dq (node k)) sq w hr
  rw [e1]
  simp only [bind, Except.bind]
  refine forN_inv (fun _ (w : Work F) => Ready w.1.slvr) _ 4 w1 h1 ?_
  intro l w _ hr
  obtain ⟨w2, e2, h2⟩ := srcNodeStep_safe hg i (sn (node l)) (sq (node l)) dq w hr
  rw [e2]
  exact edgeStep_safe hg _ _ _ _ _ w2 h2

theorem srcStep_safe {g : Gels F} (hg : KeepsSizes g) (sort : List (Pt F) → List (Pt F)) (mode : Mode) {src : Grid F}
    {sp : Nat → Pt F} (hs : src.Has sp) (i : Nat) (dn : Fin 4 → Nat) (dq : Quad F) (a : F) {j : Nat} (hj : j < src.numCells)
    (s : Work F × List (Nat × F)) (hr : Ready s.1.1.slvr) :
    (∃ s', srcStep g sort mode src i dn dq a j s = .ok s' ∧ Ready s'.1.1.slvr) ∨
      ∃ e, srcStep g sort mode src i dn dq a j s = .error e ∧ ∃ pts, hullArea mode (sort pts) = .error e := by
  unfold srcStep
  rw [src.quadCoord_ok sp hs hj]
  simp only [bind, Except.bind]
  obtain ⟨b, eb⟩ : ∃ b, (s.1.1.reset.setQuadPoints dq (src.cellQuad sp j)).checkIfBoxesOverlap = .ok b := ⟨_, rfl⟩
  rw [eb]
  simp only
  split
  · obtain ⟨w, ew, hw⟩ := pairStep_safe hg i j dn dq (src.cellNode j) (src.cellQuad sp j)
      (s.1.1.reset.setQuadPoints dq (src.cellQuad sp j), s.1.2) hr
    rw [ew]
    simp only
    split
    · cases ha : hullArea mode (sort w.1.pts) with
      | error e => exact Or.inr ⟨e, rfl, _, ha⟩
      | ok a => exact Or.inl ⟨_, rfl, hw⟩
    · exact Or.inl ⟨_, rfl, hw⟩
  · exact Or.inl ⟨_, rfl, hr⟩

theorem computeWeights_safe {g : Gels F} (hg : KeepsSizes g) (sort : List (Pt F) → List (Pt F)) (mode : Mode)
    {dst src : Grid F} {dp sp : Nat → Pt F} (hd : dst.Has dp) (hs : src.Has sp) (o : Interp F) (h1 : o.dst = some dst)
    (h2 : o.src = some src) :
    (∃ o', o.computeWeights g sort mode = .ok o') ∨
      ∃ e, o.computeWeights g sort mode = .error e ∧ ∃ pts, hullArea mode (sort pts) = .error e := by
  unfold Interp.computeWeights
  rw [h1, h2]
  have key := forN_inv_or (fun (s : Work F × Table F) => Ready s.1.1.slvr) (fun e => ∃ pts, hullArea mode (sort pts) = .error e)
    (dstStep g sort mode src dst) dst.numCells ((Isect.new, Cache.empty), o.weights) ready_new (by
    intro i s hi hr
    unfold dstStep
    rw [dst.quadCoord_ok dp hd hi]
    simp only [bind, Except.bind]
    cases ha : hullArea mode (sort [dst.cellQuad dp i 0, dst.cellQuad dp i 1, dst.cellQuad dp i 2, dst.cellQuad dp i 3]) with
    | error e => exact Or.inr ⟨e, rfl, _, ha⟩
    | ok a =>
      simp only
      rcases forN_inv_or (fun (s : Work F × List (Nat × F)) => Ready s.1.1.slvr)
        (fun e => ∃ pts, hullArea mode (sort pts) = .error e) (srcStep g sort mode src i (dst.cellNode i) (dst.cellQuad dp i) a)
        src.numCells (s.1, []) hr (fun j s hj hr => srcStep_safe hg sort mode hs i _ _ a hj s hr) with ⟨s', e, h⟩ | ⟨e, e', h⟩
      · rw [e]; exact Or.inl ⟨_, rfl, h⟩
      · rw [e']; exact Or.inr ⟨e, rfl, h⟩)
  simp only [bind, Except.bind]
  rcases key with ⟨s', e, -⟩ | ⟨e, e', h⟩
  · rw [e]; exact Or.inl ⟨_, rfl⟩
  · rw [e']; exact Or.inr ⟨e, rfl, h⟩

end
end Sg.Conserve
