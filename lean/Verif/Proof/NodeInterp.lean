import Verif.Model.NodeInterp
import Verif.Props.FindPoint
import Mathlib.Tactic.IntervalCases
namespace Sg.NodeInterp
open Sg.FindPoint Sg.LinearSolve Sg.Spec Sg.Props

/-! ### any arithmetic -/
section generic
set_option linter.unusedSectionVars false
variable {F : Type} [Zero F] [One F] [Add F] [Sub F] [Mul F] [Div F] [Neg F] [LT F] [DecidableLT F]
  [LE F] [DecidableLE F] [DecidableEq F] [NatCast F] [IntCast F] [FOps F] {n : Nat}

theorem sameGrid_refl (s : Finder F n) : SameGrid s s := ⟨rfl, rfl, rfl, rfl, rfl, rfl⟩

theorem sameGrid_trans {a b c : Finder F n} (h : SameGrid a b) (h' : SameGrid b c) : SameGrid a c :=
  ⟨h'.coords.trans h.coords, h'.bounds.trans h.bounds, h'.per.trans h.per, h'.dims.trans h.dims,
    h'.nitermax.trans h.nitermax, h'.tolpos.trans h.tolpos⟩

theorem sameGrid_next (g : Gels F) (s : Finder F n) (c : Int) (s' : Finder F n) (h : s.next g = .ok (c, s')) :
    SameGrid s s' ∧ s'.targetPoint = s.targetPoint := by
  obtain ⟨f1, f2, f3, f4, f5, f6, f7⟩ := next_frame g s c s' h
  exact ⟨⟨f1, f2, f7, f3, f5, f6⟩, f4⟩

/-- What a search leaves alone. -/
theorem loop_frame (g : Gels F) (hg : KeepsSizes g) (hn : 1 ≤ n) : ∀ (k : Nat) (s : Finder F n) (c : Int) (s' : Finder F n),
    Ready s → searchLoop g k s = .ok (c, s') → Ready s' ∧ SameGrid s s' ∧ s'.targetPoint = s.targetPoint
  | 0, s, c, s', hr, h => by
    simp only [searchLoop, Except.ok.injEq, Prod.mk.injEq] at h
    obtain ⟨_, rfl⟩ := h
    exact ⟨hr, sameGrid_refl _, rfl⟩
  | k + 1, s, c, s', hr, h => by
    unfold searchLoop at h
    obtain ⟨⟨c1, s1⟩, h1, h⟩ := bind_ok_inv h
    have hr1 := ready_next g hg hn s c1 s1 hr h1
    obtain ⟨hs1, ht1⟩ := sameGrid_next g s c1 s1 h1
    dsimp only at h
    split_ifs at h
    · obtain ⟨a, b, d⟩ := loop_frame g hg hn k s1 c s' hr1 h
      exact ⟨a, sameGrid_trans hs1 b, d.trans ht1⟩
    · simp only [pure, Except.pure, Except.ok.injEq, Prod.mk.injEq] at h
      obtain ⟨_, rfl⟩ := h
      exact ⟨hr1, hs1, ht1⟩

theorem findTarget_frame (g : Gels F) (hg : KeepsSizes g) (f : Finder F 2) (t d : Fin 2 → F) (c : Int)
    (f' : Finder F 2) (hr : Ready f) (h : findTarget g f t d = .ok (c, f')) :
    Ready f' ∧ SameGrid f f' ∧ f'.targetPoint = t := by
  unfold findTarget at h
  obtain ⟨⟨c1, s1⟩, h1, h⟩ := bind_ok_inv h
  simp only [pure, Except.pure, Except.ok.injEq, Prod.mk.injEq] at h
  obtain ⟨_, rfl⟩ := h
  obtain ⟨a, b, e⟩ := loop_frame g hg (by norm_num) _ _ c1 s1 (ready_reset f d t hr) h1
  exact ⟨a, ⟨b.coords, b.bounds, b.per, b.dims, b.nitermax, b.tolpos⟩, e⟩

/-- Two outcomes of a search that look the same. -/
def SameOut : Cxx (Int × Finder F n) → Cxx (Int × Finder F n) → Prop
  | .ok r, .ok r' => r.1 = r'.1 ∧ r.2.dIndices = r'.2.dIndices
  | .error e, .error e' => e = e'
  | _, _ => False

theorem loop_same (g : Gels F) (hg : KeepsSizes g) (hn : 1 ≤ n) (s0 s : Finder F n) (h0 : Ready s0) (h : Ready s)
    (q : SameGrid s0 s) (d t : Fin n → F) (fuel : Nat) :
    SameOut (searchLoop g fuel (s.reset d t)) (searchLoop g fuel (s0.reset d t)) := by
  have hs := sim_loop g hg hn fuel (s.reset d t) (s0.reset d t) (ready_reset s d t h) (ready_reset s0 d t h0)
    ⟨q.coords, q.bounds, q.per, q.dims, rfl, q.nitermax, q.tolpos, rfl, rfl, rfl, fun h => absurd rfl h⟩
  generalize searchLoop g fuel (s.reset d t) = a at hs ⊢
  generalize searchLoop g fuel (s0.reset d t) = b at hs ⊢
  cases a <;> cases b <;> simp only [SimOut, SameOut] at hs ⊢
  · exact hs
  · exact ⟨hs.1, hs.2.2.1⟩

theorem findTarget_same (g : Gels F) (hg : KeepsSizes g) (s0 s : Finder F 2) (h0 : Ready s0) (h : Ready s)
    (q : SameGrid s0 s) (t d : Fin 2 → F) : SameOut (findTarget g s t d) (findTarget g s0 t d) := by
  have hs := loop_same g hg (by norm_num) s0 s h0 h q d t s.fuelOf
  have hf : s.fuelOf = s0.fuelOf := by unfold Finder.fuelOf; rw [q.nitermax]
  unfold findTarget
  rw [← hf]
  generalize searchLoop g s.fuelOf (s.reset d t) = a at hs ⊢
  generalize searchLoop g s.fuelOf (s0.reset d t) = b at hs ⊢
  cases a <;> cases b <;> simp only [SameOut] at hs
  · subst hs; rfl
  · refine ⟨?_, hs.2⟩
    dsimp only
    rw [hs.1]

/-- Two outcomes of a retry that look the same. -/
def SameRetry : Cxx (Int × Finder F 2 × (Fin 2 → F)) → Cxx (Int × Finder F 2 × (Fin 2 → F)) → Prop
  | .ok r, .ok r' => r.1 = r'.1 ∧ r.2.1.dIndices = r'.2.1.dIndices ∧ r.2.2 = r'.2.2 ∧
      Ready r.2.1 ∧ Ready r'.2.1 ∧ SameGrid r'.2.1 r.2.1 ∧ r.2.1.targetPoint = r'.2.1.targetPoint
  | .error e, .error e' => e = e'
  | _, _ => False

theorem retry_same (g : Gels F) (hg : KeepsSizes g) (cd : Fin 2 → Nat) (t : Fin 2 → F) :
    ∀ (fuel : Nat) (sit : SideIterator.SideIt) (s0 s : Finder F 2) (d : Fin 2 → F), 1 ≤ fuel →
    Ready s0 → Ready s → SameGrid s0 s →
    SameRetry (retry g cd t fuel sit s d) (retry g cd t fuel sit s0 d)
  | 0, sit, s0, s, d, h1, _, _, _ => by omega
  | fuel + 1, sit, s0, s, d, _, h0, h, q => by
    unfold retry
    cases hsd : sit.get with
    | error e => rfl
    | ok side =>
      simp only [bind, Except.bind]
      cases hsi : (sideIndices cd side : Cxx (Fin 2 → F)) with
      | error e => rfl
      | ok d' =>
        dsimp only
        have hs := findTarget_same g hg s0 s h0 h q t d'
        cases e1 : findTarget g s t d' with
        | error e =>
          cases e2 : findTarget g s0 t d' with
          | error e' => rw [e1, e2] at hs; exact hs
          | ok r' => rw [e1, e2] at hs; exact hs.elim
        | ok r =>
          cases e2 : findTarget g s0 t d' with
          | error e' => rw [e1, e2] at hs; exact hs.elim
          | ok r' =>
            obtain ⟨c, f⟩ := r
            obtain ⟨c', f'⟩ := r'
            rw [e1, e2] at hs
            obtain ⟨hc, hd⟩ := hs
            dsimp only at hc hd ⊢
            subst hc
            obtain ⟨a1, a2, a3⟩ := findTarget_frame g hg s t d' c f h e1
            obtain ⟨b1, b2, b3⟩ := findTarget_frame g hg s0 t d' c f' h0 e2
            have q' : SameGrid f' f :=
              ⟨a2.coords.trans (q.coords.trans b2.coords.symm), a2.bounds.trans (q.bounds.trans b2.bounds.symm),
                a2.per.trans (q.per.trans b2.per.symm), a2.dims.trans (q.dims.trans b2.dims.symm),
                a2.nitermax.trans (q.nitermax.trans b2.nitermax.symm), a2.tolpos.trans (q.tolpos.trans b2.tolpos.symm)⟩
            cases fuel with
            | zero =>
              simp only [retry]
              split_ifs
              · exact ⟨rfl, hd, rfl, a1, b1, q', a3.trans b3.symm⟩
              · exact ⟨rfl, hd, rfl, a1, b1, q', a3.trans b3.symm⟩
            | succ k =>
              split_ifs
              · exact retry_same g hg cd t (k + 1) sit.next.1 f' f d' (by omega) b1 a1 q'
              · exact ⟨rfl, hd, rfl, a1, b1, q', a3.trans b3.symm⟩

/-- Same loop states, but for traces of earlier searches. -/
structure SameLoop (a b : LoopState F) : Prop where
  ra : Ready a.finder
  rb : Ready b.finder
  grid : SameGrid b.finder a.finder
  dI : a.dIndices = b.dIndices
  w : a.weights = b.weights

/-- Two outcomes that look the same. -/
def SameCxx {α : Type} (R : α → α → Prop) : Cxx α → Cxx α → Prop
  | .ok r, .ok r' => R r r'
  | .error e, .error e' => e = e'
  | _, _ => False

theorem node_same (g : Gels F) (hg : KeepsSizes g) (o o' : NodeInterp F) (ho : o.srcCellDims = o'.srcCellDims)
    (ho2 : o.dstGrdCoords = o'.dstGrdCoords) (k : Nat) (a b : LoopState F) (h : SameLoop a b) :
    SameCxx SameLoop (o.node g k a) (o'.node g k b) := by
  unfold NodeInterp.node NodeInterp.target
  rw [ho, ho2]
  generalize (forAxes fun j : Fin 2 => vget o'.dstGrdCoords (k * 2 + j)) = tt
  cases tt with
  | error e => rfl
  | ok t =>
    simp only [bind, Except.bind]
    have hs := findTarget_same g hg b.finder a.finder h.rb h.ra h.grid t a.dIndices
    rw [h.dI] at hs ⊢
    cases e1 : findTarget g a.finder t b.dIndices with
    | error e =>
      cases e2 : findTarget g b.finder t b.dIndices with
      | error e' => rw [e1, e2] at hs; exact hs
      | ok r' => rw [e1, e2] at hs; exact hs.elim
    | ok r =>
      cases e2 : findTarget g b.finder t b.dIndices with
      | error e' => rw [e1, e2] at hs; exact hs.elim
      | ok r' =>
        obtain ⟨c, f⟩ := r
        obtain ⟨c', f'⟩ := r'
        rw [e1, e2] at hs
        obtain ⟨hc, hd⟩ := hs
        dsimp only at hc hd ⊢
        subst hc
        obtain ⟨a1, a2, a3⟩ := findTarget_frame g hg a.finder t b.dIndices c f h.ra e1
        obtain ⟨b1, b2, b3⟩ := findTarget_frame g hg b.finder t b.dIndices c f' h.rb e2
        have q' : SameGrid f' f :=
          ⟨a2.coords.trans (h.grid.coords.trans b2.coords.symm), a2.bounds.trans (h.grid.bounds.trans b2.bounds.symm),
            a2.per.trans (h.grid.per.trans b2.per.symm), a2.dims.trans (h.grid.dims.trans b2.dims.symm),
            a2.nitermax.trans (h.grid.nitermax.trans b2.nitermax.symm), a2.tolpos.trans (h.grid.tolpos.trans b2.tolpos.symm)⟩
        split_ifs
        · rw [hd, q'.dims]
          cases getSrcIndicesAndWeights f'.dims f'.dIndices with
          | error e => rfl
          | ok iw => exact ⟨a1, b1, q', rfl, by dsimp only; rw [h.w]⟩
        · exact ⟨a1, b1, q', rfl, h.w⟩
        · cases SideIterator.new 2 with
          | error e => rfl
          | ok sit =>
            dsimp only
            have hr := retry_same g hg o'.srcCellDims t 9 sit.reset f' f b.dIndices (by norm_num) b1 a1 q'
            cases e3 : retry g o'.srcCellDims t 9 sit.reset f b.dIndices with
            | error e =>
              cases e4 : retry g o'.srcCellDims t 9 sit.reset f' b.dIndices with
              | error e' => rw [e3, e4] at hr; exact hr
              | ok r' => rw [e3, e4] at hr; exact hr.elim
            | ok r =>
              cases e4 : retry g o'.srcCellDims t 9 sit.reset f' b.dIndices with
              | error e' => rw [e3, e4] at hr; exact hr.elim
              | ok r' =>
                obtain ⟨c1, f1, d1⟩ := r
                obtain ⟨c2, f2, d2⟩ := r'
                rw [e3, e4] at hr
                obtain ⟨hc1, hd1, hdd, r1, r2, q1, ht1⟩ := hr
                dsimp only at hc1 hd1 hdd r1 r2 q1 ht1 ⊢
                subst hc1 hdd
                have hp : f1.getPosition = f2.getPosition := by
                  unfold Finder.getPosition; rw [q1.dims, q1.coords, hd1]
                have hE : f1.getError = f2.getError := by
                  unfold Finder.getError; rw [hp, ht1]
                rw [hp, hE]
                split_ifs
                · cases f2.getPosition with
                  | error e => rfl
                  | ok p =>
                    cases f2.getError with
                    | error e => rfl
                    | ok x => exact ⟨r1, r2, q1, rfl, h.w⟩
                · exact ⟨r1, r2, q1, rfl, h.w⟩

theorem forFrom_same {σ : Type} (R : σ → σ → Prop) (f f' : Nat → σ → Cxx σ)
    (h : ∀ i a b, R a b → SameCxx R (f i a) (f' i b)) : ∀ (m start : Nat) (a b : σ), R a b →
    SameCxx R (forFrom start m a f) (forFrom start m b f')
  | 0, start, a, b, hab => hab
  | m + 1, start, a, b, hab => by
    have hs := h start a b hab
    unfold forFrom
    cases h1 : f start a with
    | error e =>
      cases h2 : f' start b with
      | error e' => rw [h1, h2] at hs; exact hs
      | ok r' => rw [h1, h2] at hs; exact hs.elim
    | ok r =>
      cases h2 : f' start b with
      | error e' => rw [h1, h2] at hs; exact hs.elim
      | ok r' =>
        rw [h1, h2] at hs
        exact forFrom_same R f f' h m (start + 1) r r' hs

theorem before_same (g : Gels F) (hg : KeepsSizes g) (o o' : NodeInterp F) (ho : o.srcCellDims = o'.srcCellDims)
    (ho2 : o.dstGrdCoords = o'.dstGrdCoords) (hr : Ready o.finder) (hr' : Ready o'.finder)
    (q : SameGrid o'.finder o.finder) (k : Nat) : SameCxx SameLoop (o.before g k) (o'.before g k) := by
  unfold NodeInterp.before forN
  exact forFrom_same SameLoop _ _ (fun i a b h => node_same g hg o o' ho ho2 i a b h) k 0 _ _
    ⟨hr, hr', q, by dsimp only; rw [ho], rfl⟩

/-! #### tables -/

/-- keys increase -/
def SortedKeys (t : Table F) : Prop := t.Pairwise fun a b => a.1 < b.1

theorem insert_last (t : Table F) (k : Nat) (v : List (Int × F)) (h : ∀ e ∈ t, e.1 < k) : t.insert k v = t ++ [(k, v)] := by
  induction t with
  | nil => rfl
  | cons a t ih =>
    obtain ⟨k', v'⟩ := a
    have h1 := h (k', v') (List.mem_cons_self ..)
    dsimp only at h1
    unfold Table.insert
    rw [if_neg (by omega), if_neg (by omega), ih (fun e he => h e (List.mem_cons_of_mem _ he))]
    rfl

theorem sorted_append (t : Table F) (k : Nat) (v : List (Int × F)) (hs : SortedKeys t) (h : ∀ e ∈ t, e.1 < k) :
    SortedKeys (t ++ [(k, v)]) := by
  unfold SortedKeys
  rw [List.pairwise_append]
  exact ⟨hs, List.pairwise_singleton _ _, fun a ha b hb => by
    rw [List.mem_singleton] at hb; subst hb; exact h a ha⟩

/-- what `apply` writes for one entry -/
def entryVal (src : List F) (iv : List (Int × F)) : F :=
  iv.foldl (fun acc e => acc + e.2 * src.getD e.1.toNat 0) 0

theorem vgetI_ok {l : List F} {k : Int} (h0 : 0 ≤ k) (h : k < l.length) : vgetI l k = .ok (l.getD k.toNat 0) := by
  unfold vgetI
  rw [if_pos h0, vget_ok (by omega)]
  rw [List.getD_eq_getElem?_getD, List.getElem?_eq_getElem (by omega)]
  rfl

theorem applyEntry_ok (src : List F) (k : Nat) (iv : List (Int × F)) (dst : List F) (hk : k < dst.length)
    (hv : ∀ e ∈ iv, 0 ≤ e.1 ∧ e.1 < src.length) : applyEntry src k iv dst = .ok (dst.set k (entryVal src iv)) := by
  unfold applyEntry
  rw [vset_ok hk]
  simp only [bind, Except.bind]
  have gen : ∀ (iv : List (Int × F)) (acc : F), (∀ e ∈ iv, 0 ≤ e.1 ∧ e.1 < src.length) →
      iv.foldlM (fun dst e => Except.bind (vgetI src e.1) fun v => Except.bind (vget dst k) fun old =>
        vset dst k (old + e.2 * v)) (dst.set k acc) =
      (.ok (dst.set k (iv.foldl (fun acc e => acc + e.2 * src.getD e.1.toNat 0) acc)) : Cxx (List F)) := by
    intro iv
    induction iv with
    | nil => intro acc _; rfl
    | cons a iv ih =>
      intro acc h
      obtain ⟨h0, h1⟩ := h a (List.mem_cons_self ..)
      have hl : k < (dst.set k acc).length := by simpa using hk
      rw [List.foldlM_cons, vgetI_ok h0 h1]
      simp only [bind, Except.bind, List.foldl_cons]
      rw [vget_ok hl]
      simp only [List.getElem_set_self]
      rw [vset_ok hl, List.set_set]
      exact ih _ (fun e he => h e (List.mem_cons_of_mem _ he))
  exact gen iv 0 hv

theorem apply_ok (o : NodeInterp F) (src dst : List F) (hs : SortedKeys o.weights)
    (hk : ∀ e ∈ o.weights, e.1 < dst.length) (hv : ∀ e ∈ o.weights, ∀ q ∈ e.2, 0 ≤ q.1 ∧ q.1 < src.length) :
    ∃ d, o.apply src dst = .ok d ∧ d.length = dst.length ∧
      (∀ e ∈ o.weights, d[e.1]? = some (entryVal src e.2)) ∧
      ∀ k, (∀ e ∈ o.weights, e.1 ≠ k) → d[k]? = dst[k]? := by
  unfold NodeInterp.apply
  generalize o.weights = t at *
  induction t generalizing dst with
  | nil => exact ⟨dst, rfl, rfl, by simp, fun _ _ => rfl⟩
  | cons a t ih =>
    have hp := List.pairwise_cons.1 hs
    have hka := hk a (List.mem_cons_self ..)
    obtain ⟨d, h1, h2, h3, h4⟩ := ih (dst.set a.1 (entryVal src a.2)) hp.2
      (fun e he => by rw [List.length_set]; exact hk e (List.mem_cons_of_mem _ he))
      (fun e he => hv e (List.mem_cons_of_mem _ he))
    refine ⟨d, ?_, by rw [h2, List.length_set], ?_, ?_⟩
    · rw [List.foldlM_cons, applyEntry_ok src a.1 a.2 dst hka (hv a (List.mem_cons_self ..))]
      exact h1
    · intro e he
      rcases List.mem_cons.1 he with rfl | he
      · rw [h4 e.1 (fun x hx => (hp.1 x hx).ne')]
        simp [hka]
      · exact h3 e he
    · intro k hk'
      rw [h4 k (fun e he => hk' e (List.mem_cons_of_mem _ he)), List.getElem?_set_ne (hk' a (List.mem_cons_self ..))]

/-- A successful search ends below the tolerance. -/
theorem loop_error (g : Gels F) : ∀ (k : Nat) (s s' : Finder F n), searchLoop g k s = .ok (1, s') →
    ∃ e, s'.getError = .ok e ∧ e < s.tolpos
  | 0, s, s', h => by simp [searchLoop] at h
  | k + 1, s, s', h => by
    unfold searchLoop at h
    obtain ⟨⟨c1, s1⟩, h1, h⟩ := bind_ok_inv h
    dsimp only at h
    split_ifs at h with h0
    · obtain ⟨e, he, hlt⟩ := loop_error g k s1 s' h
      exact ⟨e, he, by rw [← (sameGrid_next g s c1 s1 h1).1.tolpos]; exact hlt⟩
    · simp only [pure, Except.pure, Except.ok.injEq, Prod.mk.injEq] at h
      obtain ⟨rfl, rfl⟩ := h
      exact (C32_status_code g s s1 1 h1).2.2.1 rfl

theorem loop_code (g : Gels F) : ∀ (k : Nat) (s s' : Finder F n) (c : Int), searchLoop g k s = .ok (c, s') →
    c = 0 ∨ c = 1 ∨ c = -1 ∨ c = -2 ∨ c = -3
  | 0, s, s', c, h => by
    simp only [searchLoop, Except.ok.injEq, Prod.mk.injEq] at h
    exact .inl h.1.symm
  | k + 1, s, s', c, h => by
    unfold searchLoop at h
    obtain ⟨⟨c1, s1⟩, h1, h⟩ := bind_ok_inv h
    dsimp only at h
    split_ifs at h with h0
    · exact loop_code g k s1 s' c h
    · simp only [pure, Except.pure, Except.ok.injEq, Prod.mk.injEq] at h
      obtain ⟨rfl, rfl⟩ := h
      exact (C32_status_code g s s1 c1 h1).1

theorem fuelOf_pos (s : Finder F n) : 1 ≤ s.fuelOf := by unfold Finder.fuelOf; omega

theorem sides_nine : ∀ k < 9, ∃ a b : Int, (⟨k, 9, [3, 1]⟩ : SideIterator.SideIt).get = .ok [a, b] ∧
    (-1 ≤ a ∧ a ≤ 1) ∧ (-1 ≤ b ∧ b ≤ 1) := by
  intro k hk
  interval_cases k <;> exact ⟨_, _, rfl, by decide, by decide⟩

theorem forFrom_succ {σ : Type} (f : Nat → σ → Cxx σ) : ∀ (n start : Nat) (s : σ),
    forFrom start (n + 1) s f = (forFrom start n s f >>= fun s => f (start + n) s)
  | 0, start, s => by
    simp only [forFrom, bind, Except.bind]
    cases f start s <;> rfl
  | n + 1, start, s => by
    rw [forFrom]
    cases h : f start s with
    | error e => simp [forFrom, h, bind, Except.bind]
    | ok s1 =>
      dsimp only
      rw [forFrom_succ f n (start + 1) s1]
      rw [show forFrom start (n + 1) s f = forFrom (start + 1) n s1 f by simp [forFrom, h],
        show start + 1 + n = start + (n + 1) by omega]

theorem before_succ (g : Gels F) (o : NodeInterp F) (k : Nat) (s : LoopState F) (h : o.before g k = .ok s) :
    o.before g (k + 1) = o.node g k s := by
  unfold NodeInterp.before forN at h ⊢
  rw [forFrom_succ, h]
  simp only [bind, Except.bind, Nat.zero_add]

theorem target_ok (o : NodeInterp F) (hl : o.dstGrdCoords.length = 2 * o.dstNumPoints) (k : Nat) (hk : k < o.dstNumPoints) :
    ∃ t, o.target k = .ok t := by
  have : ∀ j : Fin 2, ∃ v, vget o.dstGrdCoords (k * 2 + j) = .ok v := fun j => by
    rw [vget_ok (by omega)]; exact ⟨_, rfl⟩
  choose v hv using this
  exact ⟨v, forAxes_ok _ v hv⟩

theorem target_eq (o : NodeInterp F) (dd : Fin 2 → Nat) (dc : Fin 2 → Nat → F) (k : Nat) (hk : k < dd 0 * dd 1) :
    (o.setDstGrid dd dc).target k = .ok fun j => dc j k := by
  refine forAxes_ok _ _ fun j => ?_
  unfold NodeInterp.setDstGrid
  dsimp only
  rw [vget_eq_ok, List.getElem?_map, List.getElem?_range (by omega), Option.map_some]
  congr 2
  · apply Fin.ext; dsimp only; omega
  · omega

end generic

/-! ### exact arithmetic -/
section exact
set_option linter.unusedSectionVars false
variable {K : Type} [Field K] [LinearOrder K] [IsStrictOrderedRing K] [FloorRing K] [FOps K] [FOpsLaws K] {n : Nat}

/-- A finder on a usable grid: what a search needs. -/
structure GridOK (f : Finder K n) : Prop where
  ready : Ready f
  dims : GoodDims f.dims
  coords : ∀ i, (f.coords i).length = ∏ k, f.dims k

theorem gridOK_same {a b : Finder K n} (h : GridOK a) (q : SameGrid a b) (hr : Ready b) : GridOK b :=
  ⟨hr, by rw [q.dims]; exact h.dims, by rw [q.dims, q.coords]; exact h.coords⟩

/-- A search on a usable grid from a position that fits an `int` is free of undefined behaviour and ends in the grid, or
where it began if the target is outside. -/
theorem loop_good (g : Gels K) (hg : KeepsSizes g) (hn : 1 ≤ n) : ∀ (k : Nat) (s : Finder K n), Good s → 1 ≤ k →
    ∃ c s', searchLoop g k s = .ok (c, s') ∧ Good s' ∧ (InGrid s'.dims s'.dIndices ∨ s'.dIndices = s.dIndices ∧ c = -3)
  | 0, s, _, h => by omega
  | k + 1, s, hs, _ => by
    obtain ⟨c, s1, h1, hs1, hpos⟩ := good_next g hg hn s hs
    unfold searchLoop
    rw [h1]
    simp only [bind, Except.bind, pure, Except.pure]
    split_ifs with h0
    · subst h0
      cases k with
      | zero =>
        refine ⟨0, s1, rfl, hs1, ?_⟩
        rcases hpos with h | h
        · exact .inl h
        · omega
      | succ k =>
        obtain ⟨c2, s2, h2, hs2, hp2⟩ := loop_good g hg hn (k + 1) s1 hs1 (by omega)
        refine ⟨c2, s2, h2, hs2, ?_⟩
        rcases hp2 with h | ⟨h, hc⟩
        · exact .inl h
        · rcases hpos with h' | h'
          · left
            have hdd := (loop_frame g hg hn (k + 1) s1 c2 s2 hs1.ready h2).2.1.dims
            rw [h, hdd]; exact h'
          · omega
    · exact ⟨c, s1, rfl, hs1, hpos⟩

/-- `findTarget` on a usable grid: no undefined behaviour; code 0 means a position in the grid, whose image is closer to
the target than the tolerance. -/
theorem findTarget_good (g : Gels K) (hg : KeepsSizes g) (f : Finder K 2) (hf : GridOK f) (t d : Fin 2 → K)
    (hd : InGrid f.dims d) : ∃ c f', findTarget g f t d = .ok (c, f') ∧ Ready f' ∧ SameGrid f f' ∧ f'.targetPoint = t ∧
      InGrid f.dims f'.dIndices ∧ (c = 0 → ∃ e, f'.getError = .ok e ∧ e < f.tolpos) := by
  obtain ⟨c, s', h1, h2, h3⟩ := loop_good g hg (by norm_num) f.fuelOf (f.reset d t)
    ⟨ready_reset f d t hf.ready, hf.dims, hf.coords, okPos_of_inGrid f.dims hf.dims d hd⟩ (fuelOf_pos f)
  have h4 : findTarget g f t d = .ok (if c > 0 then 0 else c, s') := by
    unfold findTarget; rw [h1]; rfl
  obtain ⟨a1, a2, a3⟩ := findTarget_frame g hg f t d _ s' hf.ready h4
  refine ⟨_, s', h4, a1, a2, a3, ?_, ?_⟩
  · rcases h3 with h | ⟨h, _⟩
    · rw [a2.dims] at h; exact h
    · rw [h]; exact hd
  · intro hc
    have hcode := loop_code g _ _ _ _ h1
    have hb : c = 0 → False := by
      intro h0
      have := loop_bound g _ _ _ _ h1 (fuelOf_pos f) h0
      unfold Finder.fuelOf at this
      simp only [Finder.reset] at this
      omega
    have hc1 : c = 1 := by
      split_ifs at hc with h
      · omega
      · exact absurd hc (by intro h; exact hb h)
    subst hc1
    have := loop_error g _ _ _ h1
    exact this

theorem sideIndices_ok (dims : Fin 2 → Nat) (hd : ∀ i, 2 ≤ dims i ∧ dims i ≤ 2 ^ 30) (a b : Int) (ha : -1 ≤ a ∧ a ≤ 1)
    (hb : -1 ≤ b ∧ b ≤ 1) : ∃ d : Fin 2 → K, sideIndices (fun j => dims j - 1) [a, b] = .ok d ∧ InGrid dims d := by
  have key : ∀ (i : Fin 2) (x : Int), -1 ≤ x ∧ x ≤ 1 → ∃ v : K,
      ((do let k ← iadd x 1; let p ← imul k ((dims i - 1 : Nat) : Int); return (p : K) / (2 : Nat)) : Cxx K) = .ok v ∧
        0 ≤ v ∧ v ≤ (dims i : K) - 1 := by
    intro i x hx
    obtain ⟨h2, h3⟩ := hd i
    have h1 : iadd x 1 = .ok (x + 1) := by
      unfold iadd chk; rw [if_pos (by constructor <;> omega)]
    have hm : 0 ≤ (x + 1) * ((dims i - 1 : Nat) : Int) ∧ (x + 1) * ((dims i - 1 : Nat) : Int) ≤ 2 * ((dims i - 1 : Nat) : Int) := by
      constructor
      · exact mul_nonneg (by omega) (by omega)
      · exact mul_le_mul_of_nonneg_right (by omega) (by omega)
    have h4 : imul (x + 1) ((dims i - 1 : Nat) : Int) = .ok ((x + 1) * ((dims i - 1 : Nat) : Int)) := by
      unfold imul chk; rw [if_pos (by constructor <;> omega)]
    refine ⟨(((x + 1) * ((dims i - 1 : Nat) : Int) : Int) : K) / (2 : Nat), by rw [h1]; simp only [bind, Except.bind]; rw [h4]; rfl, ?_, ?_⟩
    · apply div_nonneg _ (Nat.cast_nonneg _)
      exact_mod_cast hm.1
    · rw [div_le_iff₀ (by norm_num)]
      have h5 : (((x + 1) * ((dims i - 1 : Nat) : Int) : Int) : K) ≤ ((2 * ((dims i - 1 : Nat) : Int) : Int) : K) := by
        exact_mod_cast hm.2
      refine h5.trans (le_of_eq ?_)
      push_cast [Nat.cast_sub (show 1 ≤ dims i by omega)]
      ring
  obtain ⟨v0, h0, p0⟩ := key 0 a ha
  obtain ⟨v1, h1, p1⟩ := key 1 b hb
  refine ⟨![v0, v1], forAxes_ok _ _ ?_, ?_⟩
  · intro i
    fin_cases i
    · exact h0
    · exact h1
  · intro i
    fin_cases i
    · exact p0
    · exact p1

theorem retry_good (g : Gels K) (hg : KeepsSizes g) (dims : Fin 2 → Nat) (hd : ∀ i, 2 ≤ dims i ∧ dims i ≤ 2 ^ 30)
    (t : Fin 2 → K) : ∀ (fuel k : Nat) (f : Finder K 2) (d : Fin 2 → K), fuel + k = 9 → 1 ≤ fuel → GridOK f → f.dims = dims →
    ∃ c f' d', retry g (fun j => dims j - 1) t fuel ⟨k, 9, [3, 1]⟩ f d = .ok (c, f', d') ∧ Ready f' ∧ SameGrid f f' ∧
      f'.targetPoint = t ∧ InGrid dims f'.dIndices ∧ InGrid dims d'
  | 0, k, f, d, _, h, _, _ => by omega
  | fuel + 1, k, f, d, hk, _, hf, hfd => by
    obtain ⟨a, b, hs, ha, hb⟩ := sides_nine k (by omega)
    obtain ⟨d1, hd1, hin⟩ := sideIndices_ok (K := K) dims hd a b ha hb
    unfold retry
    rw [hs]
    simp only [bind, Except.bind]
    rw [hd1]
    dsimp only
    obtain ⟨c, f1, h1, r1, q1, t1, i1, _⟩ := findTarget_good g hg f hf t d1 (by rw [hfd]; exact hin)
    rw [h1]
    dsimp only [pure, Except.pure]
    rw [hfd] at i1
    have hw : SideIterator.wrap (k + 1) = k + 1 := by unfold SideIterator.wrap; omega
    have hnx : (⟨k, 9, [3, 1]⟩ : SideIterator.SideIt).next = (⟨k + 1, 9, [3, 1]⟩, if k + 1 < 9 then 0 else 1) := by
      unfold SideIterator.SideIt.next; dsimp only; rw [hw]
    rw [hnx]
    dsimp only
    by_cases hlast : fuel = 0
    · rw [if_neg (by rw [if_neg (by omega)]; omega)]
      exact ⟨c, f1, d1, rfl, r1, q1, t1, i1, hin⟩
    · by_cases hgo : (if k + 1 < 9 then 0 else 1) ≠ 1 ∧ c ≠ 0
      · rw [if_pos hgo]
        obtain ⟨c2, f2, d2, e2, r2, q2, t2, i2, j2⟩ := retry_good g hg dims hd t fuel (k + 1) f1 d1 (by omega) (by omega)
          (gridOK_same hf q1 r1) (q1.dims.trans hfd)
        exact ⟨c2, f2, d2, e2, r2, sameGrid_trans q1 q2, t2, i2, j2⟩
      · rw [if_neg hgo]
        exact ⟨c, f1, d1, rfl, r1, q1, t1, i1, hin⟩

/-- An interpolator whose two grids are set. -/
structure Set2 (o : NodeInterp K) (dims : Fin 2 → Nat) : Prop where
  grid : GridOK o.finder
  eqDims : o.finder.dims = dims
  small : ∀ i, 2 ≤ dims i ∧ dims i ≤ 2 ^ 30
  cell : o.srcCellDims = fun j => dims j - 1
  dst : o.dstGrdCoords.length = 2 * o.dstNumPoints

/-- One entry of the table: the weights of a position in the grid, whose image is near the target. -/
def EntryOK (o : NodeInterp K) (e : Nat × List (Int × K)) : Prop :=
  ∃ d t, InGrid o.finder.dims d ∧ o.target e.1 = .ok t ∧ getSrcIndicesAndWeights o.finder.dims d = .ok e.2 ∧
    ∃ err, ({ o.finder with dIndices := d, targetPoint := t }).getError = .ok err ∧ err < o.finder.tolpos

/-- The search from the position at hand succeeds for node `k`. -/
def FirstTry (g : Gels K) (o : NodeInterp K) (k : Nat) : Prop :=
  ∃ s t f, o.before g k = .ok s ∧ o.target k = .ok t ∧ findTarget g s.finder t s.dIndices = .ok (0, f)

structure LoopOK (g : Gels K) (o : NodeInterp K) (k : Nat) (s : LoopState K) : Prop where
  before : o.before g k = .ok s
  ready : Ready s.finder
  same : SameGrid o.finder s.finder
  pos : InGrid o.finder.dims s.dIndices
  keys : ∀ e ∈ s.weights, e.1 < k
  sorted : SortedKeys s.weights
  entries : ∀ e ∈ s.weights, EntryOK o e
  first : ∀ j < k, (∃ iw, (j, iw) ∈ s.weights) ↔ FirstTry g o j

theorem node_good (g : Gels K) (hg : KeepsSizes g) (o : NodeInterp K) (dims : Fin 2 → Nat) (ho : Set2 o dims) (k : Nat)
    (hk : k < o.dstNumPoints) (s : LoopState K) (h : LoopOK g o k s) : ∃ s', o.node g k s = .ok s' ∧ LoopOK g o (k + 1) s' := by
  obtain ⟨t, ht⟩ := target_ok o ho.dst k hk
  have hf := gridOK_same ho.grid h.same h.ready
  obtain ⟨c, f, e1, r1, q1, t1, i1, err1⟩ := findTarget_good g hg s.finder hf t s.dIndices (by rw [h.same.dims]; exact h.pos)
  have hnode : ∃ s', o.node g k s = .ok s' ∧ Ready s'.finder ∧ SameGrid o.finder s'.finder ∧ InGrid o.finder.dims s'.dIndices ∧
      ((c = 0 ∧ ∃ iw, getSrcIndicesAndWeights o.finder.dims f.dIndices = .ok iw ∧ s'.weights = s.weights.insert k iw) ∨
        (c ≠ 0 ∧ s'.weights = s.weights)) := by
    unfold NodeInterp.node
    rw [ht]
    simp only [bind, Except.bind]
    rw [e1]
    dsimp only
    split_ifs with hc hc3
    · obtain ⟨iw, hiw, _⟩ := C28_partition_of_unity f.dims (by rw [q1.dims]; exact hf.dims) f.dIndices
        (by rw [q1.dims]; exact i1)
      rw [hiw]
      refine ⟨_, rfl, r1, sameGrid_trans h.same q1, h.pos, .inl ⟨hc, iw, ?_, rfl⟩⟩
      rw [← h.same.dims, ← q1.dims]; exact hiw
    · exact ⟨_, rfl, r1, sameGrid_trans h.same q1, h.pos, .inr ⟨hc, rfl⟩⟩
    · have hsit : SideIterator.new 2 = .ok ⟨0, 9, [3, 1]⟩ := rfl
      rw [hsit]
      dsimp only
      rw [ho.cell]
      obtain ⟨c2, f2, d2, e2, r2, q2, t2, i2, j2⟩ := retry_good g hg dims ho.small t 9 0 f s.dIndices (by norm_num) (by norm_num)
        (gridOK_same hf q1 r1) (q1.dims.trans (h.same.dims.trans ho.eqDims))
      have e2' : retry g (fun j => dims j - 1) t 9 (SideIterator.SideIt.reset ⟨0, 9, [3, 1]⟩) f s.dIndices = .ok (c2, f2, d2) := e2
      rw [e2']
      dsimp only
      have q2' := sameGrid_trans (sameGrid_trans h.same q1) q2
      have g2 := gridOK_same ho.grid q2' r2
      have j2' : InGrid o.finder.dims d2 := by rw [ho.eqDims]; exact j2
      split_ifs
      · have hp : ∃ p, f2.getPosition = .ok p := by
          have h1 : ∀ i, ∃ v, interp f2.dims f2.dIndices (f2.coords i) = .ok v := fun i =>
            interp_isOk f2.dims g2.dims _ (okPos_of_inGrid f2.dims g2.dims _ (by rw [q2'.dims, ho.eqDims]; exact i2)) _ (g2.coords i)
          choose v hv using h1
          exact ⟨v, forAxes_ok _ v hv⟩
        obtain ⟨p, hp⟩ := hp
        obtain ⟨er, he⟩ := getError_isOk f2 g2.dims g2.coords (okPos_of_inGrid f2.dims g2.dims _ (by rw [q2'.dims, ho.eqDims]; exact i2))
        rw [hp, he]
        exact ⟨_, rfl, r2, q2', j2', .inr ⟨hc, rfl⟩⟩
      · exact ⟨_, rfl, r2, q2', j2', .inr ⟨hc, rfl⟩⟩
  obtain ⟨s', hs', r', q', p', hw⟩ := hnode
  refine ⟨s', hs', ?_⟩
  have hb' := (before_succ g o k s h.before).trans hs'
  have hft : FirstTry g o k ↔ c = 0 := by
    constructor
    · rintro ⟨s2, t2, f2, hs2, ht2, hf2⟩
      rw [h.before, Except.ok.injEq] at hs2; subst hs2
      rw [ht, Except.ok.injEq] at ht2; subst ht2
      rw [e1, Except.ok.injEq, Prod.mk.injEq] at hf2
      exact hf2.1
    · rintro rfl
      exact ⟨s, t, f, h.before, ht, e1⟩
  rcases hw with ⟨hc, iw, hiw, hw⟩ | ⟨hc, hw⟩
  · rw [insert_last _ _ _ h.keys] at hw
    refine ⟨hb', r', q', p', ?_, ?_, ?_, ?_⟩
    · intro e he
      rw [hw, List.mem_append, List.mem_singleton] at he
      rcases he with he | rfl
      · exact (h.keys e he).trans (Nat.lt_succ_self k)
      · exact Nat.lt_succ_self k
    · rw [hw]; exact sorted_append _ _ _ h.sorted h.keys
    · intro e he
      rw [hw, List.mem_append, List.mem_singleton] at he
      rcases he with he | rfl
      · exact h.entries e he
      · obtain ⟨er, her, hlt⟩ := err1 hc
        refine ⟨f.dIndices, t, by rw [← h.same.dims]; exact i1, ht, hiw, er, ?_, by rw [← h.same.tolpos]; exact hlt⟩
        have hq := sameGrid_trans h.same q1
        unfold Finder.getError Finder.getPosition at her ⊢
        rw [hq.dims, hq.coords, t1] at her
        exact her
    · intro j hj
      rw [hw]
      rcases Nat.lt_succ_iff_lt_or_eq.1 hj with hj | rfl
      · rw [← h.first j hj]
        constructor
        · rintro ⟨iw', hi⟩
          rw [List.mem_append, List.mem_singleton] at hi
          rcases hi with hi | hi
          · exact ⟨iw', hi⟩
          · have := congrArg Prod.fst hi; dsimp only at this; omega
        · rintro ⟨iw', hi⟩
          exact ⟨iw', List.mem_append_left _ hi⟩
      · rw [hft]
        exact ⟨fun _ => hc, fun _ => ⟨iw, by simp⟩⟩
  · refine ⟨hb', r', q', p', ?_, by rw [hw]; exact h.sorted, by rw [hw]; exact h.entries, ?_⟩
    · intro e he
      rw [hw] at he
      exact (h.keys e he).trans (Nat.lt_succ_self k)
    · intro j hj
      rw [hw]
      rcases Nat.lt_succ_iff_lt_or_eq.1 hj with hj | rfl
      · exact h.first j hj
      · rw [hft]
        constructor
        · rintro ⟨iw', hi⟩
          exact absurd (h.keys _ hi) (Nat.lt_irrefl _)
        · intro h'; exact absurd h' hc

theorem startIndices_inGrid (dims : Fin 2 → Nat) (hd : ∀ i, 2 ≤ dims i ∧ dims i ≤ 2 ^ 30) :
    InGrid dims (startIndices (fun j => dims j - 1) : Fin 2 → K) := by
  intro i
  have h1 : ((dims i - 1 : Nat) : K) = (dims i : K) - 1 := by
    push_cast [Nat.cast_sub (show 1 ≤ dims i by have := (hd i).1; omega)]; ring
  have h0 : (0 : K) ≤ ((dims i - 1 : Nat) : K) := Nat.cast_nonneg _
  rw [← h1]
  unfold startIndices
  fin_cases i
  · simp only [Fin.zero_eta, if_true] at h0 ⊢
    exact ⟨div_nonneg h0 (by positivity), div_le_self h0 (by norm_num)⟩
  · simp only [Fin.mk_one, one_ne_zero, if_false] at h0 ⊢
    exact ⟨div_nonneg h0 (by positivity), div_le_self h0 (by norm_num)⟩

theorem before_good (g : Gels K) (hg : KeepsSizes g) (o : NodeInterp K) (dims : Fin 2 → Nat) (ho : Set2 o dims) :
    ∀ k ≤ o.dstNumPoints, ∃ s, o.before g k = .ok s ∧ LoopOK g o k s := by
  intro k
  induction k with
  | zero =>
    intro _
    refine ⟨_, rfl, rfl, ho.grid.ready, sameGrid_refl _, ?_, by simp, List.Pairwise.nil, by simp, by omega⟩
    rw [ho.cell, ho.eqDims]
    exact startIndices_inGrid dims ho.small
  | succ k ih =>
    intro hk
    obtain ⟨s, hs, hl⟩ := ih (by omega)
    obtain ⟨s', hs', hl'⟩ := node_good g hg o dims ho k (by omega) s hl
    exact ⟨s', hl'.before, hl'⟩

theorem set2_of (nitermax : Int) (tolpos : K) (dims : Fin 2 → Nat) (hd : ∀ i, 2 ≤ dims i ∧ dims i ≤ 2 ^ 30)
    (per : Fin 2 → Int) (coords : Fin 2 → Nat → K) (dd : Fin 2 → Nat) (dc : Fin 2 → Nat → K) :
    Set2 (((new nitermax tolpos).setSrcGrid dims per coords).setDstGrid dd dc) dims where
  grid := ⟨ready_setGrid _ _ _ _, fun i => ⟨(hd i).1, (hd i).2.trans (by norm_num)⟩, fun i => by
    simp [NodeInterp.setDstGrid, NodeInterp.setSrcGrid, Finder.setGrid]⟩
  eqDims := rfl
  small := hd
  cell := rfl
  dst := by simp [NodeInterp.setDstGrid]

/-- `interp` reads the weights as `apply` does. -/
theorem interp_entryVal (dims : Fin n → Nat) (hd : GoodDims dims) (d : Fin n → K) (h : InGrid dims d) (field : List K)
    (hl : field.length = ∏ i, dims i) (iw : List (Int × K)) (hiw : getSrcIndicesAndWeights dims d = .ok iw) :
    interp dims d field = .ok (entryVal field iw) ∧ ∀ e ∈ iw, 0 ≤ e.1 ∧ e.1 < field.length := by
  obtain ⟨iw', h1, h2, _⟩ := C29_indices_valid dims hd d h
  rw [hiw, Except.ok.injEq] at h1
  subst h1
  have h3 : ∀ e ∈ iw, 0 ≤ e.1 ∧ e.1 < field.length := fun e he => by rw [hl]; exact h2 e he
  refine ⟨?_, h3⟩
  unfold interp
  rw [hiw]
  simp only [bind, Except.bind, pure, Except.pure]
  unfold entryVal
  have gen : ∀ (l : List (Int × K)) (c : K), (∀ e ∈ l, 0 ≤ e.1 ∧ e.1 < field.length) →
      l.foldlM (fun res e => Except.bind (vgetI field e.1) fun v => (.ok (res + e.2 * v) : Cxx K)) c =
        .ok (l.foldl (fun acc e => acc + e.2 * field.getD e.1.toNat 0) c) := by
    intro l
    induction l with
    | nil => intro c _; rfl
    | cons a l ih =>
      intro c hl
      obtain ⟨p, q⟩ := hl a (List.mem_cons_self ..)
      rw [List.foldlM_cons, vgetI_ok p q]
      exact ih _ fun e he => hl e (List.mem_cons_of_mem _ he)
  exact gen iw 0 h3

theorem entryVal_eq (src : List K) (iw : List (Int × K)) :
    entryVal src iw = (iw.map fun e => e.2 * src.getD e.1.toNat 0).sum := by
  unfold entryVal
  have gen : ∀ (l : List (Int × K)) (c : K), l.foldl (fun acc e => acc + e.2 * src.getD e.1.toNat 0) c =
      c + (l.map fun e => e.2 * src.getD e.1.toNat 0).sum := by
    intro l
    induction l with
    | nil => intro c; simp
    | cons a l ih => intro c; simp only [List.foldl_cons, List.map_cons, List.sum_cons, ih]; ring
  rw [gen, zero_add]

end exact
end Sg.NodeInterp
