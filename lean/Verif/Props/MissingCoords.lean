import Verif.Props.MissingNodes
/-
Property C137: missing coordinates (NaN or infinite) of nodes of the source and destination grids of nodal interpolation.
-/
namespace Sg.Props
open Sg.LinearSolve Sg.FindPoint Sg.NodeInterp Sg.Spec Sg.Ieee

section generic
set_option linter.unusedSectionVars false
variable {F : Type} [Zero F] [One F] [Add F] [Sub F] [Mul F] [Div F] [Neg F] [LT F] [DecidableLT F]
  [LE F] [DecidableLE F] [DecidableEq F] [NatCast F] [IntCast F] [FOps F]

theorem findTarget_outside (g : Gels F) (f : Finder F 2) (hr : Ready f) (b : (Fin 2 → F) × (Fin 2 → F)) (hb : f.bounds = some b)
    (t d : Fin 2 → F) (h : (f.reset d t).inside b = false) : findTarget g f t d = .ok (-3, f.reset d t) := by
  obtain ⟨-, sl, hs, -⟩ := hr
  unfold findTarget
  obtain ⟨m, hm⟩ : ∃ m, f.fuelOf = m + 1 := ⟨f.fuelOf - 1, by have := fuelOf_pos f; omega⟩
  rw [hm]
  unfold searchLoop
  have e : (f.reset d t).next g = .ok (-3, f.reset d t) := by
    unfold Finder.next
    have e1 : (f.reset d t).bounds = some b := hb
    have e2 : (f.reset d t).slvr = some sl := hs
    rw [e1, e2]
    dsimp only
    rw [h]
    rfl
  rw [e]
  rfl

/-- The target does not pass the test of the bounding box. -/
def OutBox (b : (Fin 2 → F) × (Fin 2 → F)) (t : Fin 2 → F) : Prop :=
  ∃ i, ¬ (b.1 i - FOps.eps100 ≤ t i ∧ t i ≤ b.2 i + FOps.eps100)

theorem inside_out (f : Finder F 2) (b : (Fin 2 → F) × (Fin 2 → F)) (d t : Fin 2 → F) :
    (f.reset d t).inside b = false ↔ OutBox b t := by
  unfold Finder.inside OutBox
  rw [← Bool.not_eq_true, List.all_eq_true]
  push Not
  constructor
  · rintro ⟨i, -, h⟩
    refine ⟨i, fun h1 => ?_⟩
    intro h2
    apply h
    rw [Bool.and_eq_true, decide_eq_true_eq, decide_eq_true_eq]
    exact ⟨h1, h2⟩
  · rintro ⟨i, h⟩
    refine ⟨i, List.mem_finRange i, fun h' => ?_⟩
    rw [Bool.and_eq_true, decide_eq_true_eq, decide_eq_true_eq] at h'
    exact h h'.1 h'.2

theorem node_out (g : Gels F) (o : NodeInterp F) (k : Nat) (s : LoopState F) (hr : Ready s.finder) (b : (Fin 2 → F) × (Fin 2 → F))
    (hb : s.finder.bounds = some b) (t : Fin 2 → F) (ht : o.target k = .ok t) (h : OutBox b t) :
    o.node g k s = .ok { s with finder := s.finder.reset s.dIndices t } := by
  unfold NodeInterp.node
  rw [ht]
  simp only [bind, Except.bind]
  rw [findTarget_outside g s.finder hr b hb t s.dIndices ((inside_out _ b _ t).2 h)]
  rfl

theorem mem_insert (t : Table F) (k : Nat) (v : List (Int × F)) (e : Nat × List (Int × F)) (h : e ∈ t.insert k v) : e ∈ t ∨ e = (k, v) := by
  induction t with
  | nil => exact Or.inr (List.mem_singleton.1 h)
  | cons a t ih =>
    obtain ⟨k', v'⟩ := a
    unfold Table.insert at h
    split_ifs at h
    · rcases List.mem_cons.1 h with h | h
      · exact Or.inr h
      · exact Or.inl h
    · exact Or.inl h
    · rcases List.mem_cons.1 h with h | h
      · exact Or.inl (h ▸ List.mem_cons_self ..)
      · exact (ih h).imp_left (List.mem_cons_of_mem _)

theorem node_keys (g : Gels F) (o : NodeInterp F) (k : Nat) (s s' : LoopState F) (h : o.node g k s = .ok s') (e : Nat × List (Int × F))
    (he : e ∈ s'.weights) : e ∈ s.weights ∨ e.1 = k := by
  unfold NodeInterp.node at h
  obtain ⟨_, _, h⟩ := bind_ok_inv h
  obtain ⟨⟨c1, f1⟩, _, h⟩ := bind_ok_inv h
  dsimp only at h
  split_ifs at h
  · obtain ⟨iw1, _, h⟩ := bind_ok_inv h
    simp only [pure, Except.pure, Except.ok.injEq] at h
    subst h
    rcases mem_insert _ _ _ _ he with h | h
    · exact Or.inl h
    · exact Or.inr (by rw [h])
  · simp only [pure, Except.pure, Except.ok.injEq] at h
    subst h; exact Or.inl he
  · obtain ⟨_, _, h⟩ := bind_ok_inv h
    obtain ⟨⟨_, _, _⟩, _, h⟩ := bind_ok_inv h
    dsimp only at h
    split_ifs at h
    · obtain ⟨_, _, h⟩ := bind_ok_inv h
      obtain ⟨_, _, h⟩ := bind_ok_inv h
      simp only [pure, Except.pure, Except.ok.injEq] at h
      subst h; exact Or.inl he
    · simp only [pure, Except.pure, Except.ok.injEq] at h
      subst h; exact Or.inl he

theorem before_pred (g : Gels F) (o : NodeInterp F) (k : Nat) (s' : LoopState F) (h : o.before g (k + 1) = .ok s') :
    ∃ s, o.before g k = .ok s ∧ o.node g k s = .ok s' := by
  cases h1 : o.before g k with
  | error e =>
    unfold NodeInterp.before forN at h h1
    rw [forFrom_succ, h1] at h
    cases h
  | ok s => exact ⟨s, rfl, by rw [← before_succ g o k s h1]; exact h⟩

theorem before_out (g : Gels F) (hg : KeepsSizes g) (o : NodeInterp F) (hr : Ready o.finder) (b : (Fin 2 → F) × (Fin 2 → F))
    (hb : o.finder.bounds = some b) : ∀ (n : Nat) (s : LoopState F), o.before g n = .ok s →
    (Ready s.finder ∧ s.finder.bounds = some b) ∧ ∀ e ∈ s.weights, e.1 < n ∧ ∀ t, o.target e.1 = .ok t → ¬ OutBox b t
  | 0, s, h => by
    unfold NodeInterp.before forN forFrom at h
    rw [Except.ok.injEq] at h
    subst h
    exact ⟨⟨hr, hb⟩, fun e he => absurd he List.not_mem_nil⟩
  | n + 1, s', h => by
    obtain ⟨s, h1, h2⟩ := before_pred g o n s' h
    obtain ⟨⟨r1, r2⟩, r3⟩ := before_out g hg o hr b hb n s h1
    have hf : Ready s'.finder ∧ SameGrid s.finder s'.finder := by
      refine forFrom_finder g hg o 1 n s s' r1 ?_
      unfold forFrom
      dsimp only
      rw [h2]
      rfl
    refine ⟨⟨hf.1, hf.2.bounds.trans r2⟩, fun e he => ?_⟩
    rcases node_keys g o n s s' h2 e he with h3 | h3
    · exact ⟨(r3 e h3).1.trans (Nat.lt_succ_self n), (r3 e h3).2⟩
    · refine ⟨by omega, fun t ht hout => ?_⟩
      rw [h3] at ht
      rw [node_out g o n s r1 b r2 t ht hout, Except.ok.injEq] at h2
      subst h2
      have := (r3 e he).1
      omega

theorem node_congr (g : Gels F) (o o' : NodeInterp F) (ho : o.srcCellDims = o'.srcCellDims) (k : Nat) (ht : o.target k = o'.target k)
    (s : LoopState F) : o.node g k s = o'.node g k s := by
  unfold NodeInterp.node
  rw [ho, ht]

theorem forFrom_lt {σ : Type} (f f' : Nat → σ → Cxx σ) (R : σ → σ → Prop) (N : Nat)
    (h : ∀ i < N, ∀ a b, R a b → SameCxx R (f i a) (f' i b)) : ∀ (m start : Nat) (a b : σ), start + m ≤ N → R a b →
    SameCxx R (forFrom start m a f) (forFrom start m b f')
  | 0, start, a, b, _, hab => hab
  | m + 1, start, a, b, hN, hab => by
    have hs := h start (by omega) a b hab
    unfold forFrom
    cases h1 : f start a with
    | error e =>
      cases h2 : f' start b with
      | error e' => rw [h1, h2] at hs; exact hs
      | ok r' => rw [h1, h2] at hs; exact hs.elim
    | ok r =>
      cases h2 : f' start b with
      | error e' => rw [h1, h2] at hs; exact hs.elim
      | ok r' =>
        rw [h1, h2] at hs
        exact forFrom_lt f f' R N h m (start + 1) r r' (by omega) hs

theorem vset_other {l l' : List F} {k : Nat} {a : F} (h : vset l k a = .ok l') (i : Nat) (hi : i ≠ k) : l'[i]? = l[i]? := by
  by_cases hk : k < l.length
  · rw [vset_ok hk, Except.ok.injEq] at h
    rw [← h, List.getElem?_set_ne (Ne.symm hi)]
  · unfold vset at h
    rw [if_neg hk] at h
    cases h

theorem applyEntry_other (src : List F) (k : Nat) (iv : List (Int × F)) (dst d : List F) (h : applyEntry src k iv dst = .ok d) (i : Nat)
    (hi : i ≠ k) : d[i]? = dst[i]? := by
  unfold applyEntry at h
  obtain ⟨d1, h1, h⟩ := bind_ok_inv h
  rw [← vset_other h1 i hi]
  have gen : ∀ (iv : List (Int × F)) (d1 : List F), iv.foldlM (fun dst e => do
      let v ← vgetI src e.1
      let old ← vget dst k
      vset dst k (old + e.2 * v)) d1 = .ok d → d[i]? = d1[i]? := by
    intro iv
    induction iv with
    | nil =>
      intro d1 h
      simp only [List.foldlM_nil, pure, Except.pure, Except.ok.injEq] at h
      rw [h]
    | cons p iv ih =>
      intro d1 h
      rw [List.foldlM_cons] at h
      obtain ⟨d2, h2, h⟩ := bind_ok_inv h
      rw [ih d2 h]
      obtain ⟨_, _, h2⟩ := bind_ok_inv h2
      obtain ⟨_, _, h2⟩ := bind_ok_inv h2
      exact vset_other h2 i hi
  exact gen iv d1 h

theorem apply_other (o : NodeInterp F) (src dst d : List F) (h : o.apply src dst = .ok d) (i : Nat) (hi : ∀ iw, (i, iw) ∉ o.weights) :
    d[i]? = dst[i]? := by
  unfold NodeInterp.apply at h
  generalize o.weights = t at *
  induction t generalizing dst with
  | nil =>
    simp only [List.foldlM_nil, pure, Except.pure, Except.ok.injEq] at h
    rw [h]
  | cons e t ih =>
    rw [List.foldlM_cons] at h
    obtain ⟨d1, h1, h⟩ := bind_ok_inv h
    rw [ih d1 h fun iw hm => hi iw (List.mem_cons_of_mem _ hm)]
    exact applyEntry_other src e.1 e.2 dst d1 h1 i fun hie => hi e.2 (by rw [hie]; exact List.mem_cons_self ..)

/-- Bounding box of the grid that a new object has after `setSrcGrid`. -/
def boxOf (dims : Fin 2 → Nat) (coords : Fin 2 → Nat → F) : (Fin 2 → F) × (Fin 2 → F) :=
  (fun i => (List.range (∏ i, dims i)).foldl (fun m j => if m < coords i j then m else coords i j) FOps.big,
   fun i => (List.range (∏ i, dims i)).foldl (fun m j => if coords i j < m then m else coords i j) (-FOps.big))

/-- The value kept by a loop is the first one or one of those met. -/
theorem foldl_pick (p : F → F → Prop) [DecidableRel p] (c : Nat → F) (l : List Nat) (m : F) :
    l.foldl (fun m j => if p m (c j) then m else c j) m = m ∨ ∃ j ∈ l, l.foldl (fun m j => if p m (c j) then m else c j) m = c j := by
  induction l generalizing m with
  | nil => exact Or.inl rfl
  | cons a l ih =>
    rw [List.foldl_cons]
    rcases ih (if p m (c a) then m else c a) with h | ⟨j, hj, h⟩
    · split_ifs at h ⊢
      · exact Or.inl h
      · exact Or.inr ⟨a, List.mem_cons_self .., h⟩
    · exact Or.inr ⟨j, List.mem_cons_of_mem _ hj, h⟩

variable (g : Gels F) (hg : KeepsSizes g) (nitermax : Int) (tolpos : F) (dims : Fin 2 → Nat) (per : Fin 2 → Int)
  (coords : Fin 2 → Nat → F) (dd : Fin 2 → Nat) (dc : Fin 2 → Nat → F)
include hg

/-- Destination nodes outside of the bounding box get no weights, and their values are left alone. -/
theorem out_no_entry (o : NodeInterp F) (h : (((new nitermax tolpos).setSrcGrid dims per coords).setDstGrid dd dc).computeWeights g = .ok o)
    (k : Nat) (hk : k < dd 0 * dd 1) (hout : OutBox (boxOf dims coords) fun j => dc j k) :
    (∀ iw, (k, iw) ∉ o.weights) ∧ ∀ src dst d, o.apply src dst = .ok d → d[k]? = dst[k]? := by
  have key : ∀ iw, (k, iw) ∉ o.weights := by
    intro iw hm
    rw [computeWeights_set g _ rfl rfl] at h
    obtain ⟨s, hs, h⟩ := bind_ok_inv h
    simp only [pure, Except.pure, Except.ok.injEq] at h
    subst h
    have := before_out g hg _ (ready_setGrid _ _ _ _) (boxOf dims coords) rfl _ s hs
    exact (this.2 _ hm).2 _ (target_eq _ dd dc k hk) hout
  exact ⟨key, fun src dst d hd => apply_other o src dst d hd k key⟩

/-- Two destination grids that differ only in nodes outside of the bounding box have the same table, or fail in the same way. -/
theorem out_same_table (dc' : Fin 2 → Nat → F) (h : ∀ k < dd 0 * dd 1, (∀ a, dc a k = dc' a k) ∨
      OutBox (boxOf dims coords) (fun j => dc j k) ∧ OutBox (boxOf dims coords) fun j => dc' j k) :
    (do let r ← (((new nitermax tolpos).setSrcGrid dims per coords).setDstGrid dd dc).computeWeights g
        return r.weights) =
      (do let r ← (((new nitermax tolpos).setSrcGrid dims per coords).setDstGrid dd dc').computeWeights g
          return r.weights) := by
  rw [computeWeights_set g _ rfl rfl, computeWeights_set g _ rfl rfl]
  have hs : SameCxx (fun a b => SameLoop a b ∧ a.finder.bounds = some (boxOf dims coords))
      ((((new nitermax tolpos).setSrcGrid dims per coords).setDstGrid dd dc).before g (dd 0 * dd 1))
      ((((new nitermax tolpos).setSrcGrid dims per coords).setDstGrid dd dc').before g (dd 0 * dd 1)) := by
    unfold NodeInterp.before forN
    refine forFrom_lt _ _ _ (dd 0 * dd 1) ?_ (dd 0 * dd 1) 0 _ _ (by omega)
      ⟨⟨ready_setGrid _ _ _ _, ready_setGrid _ _ _ _, sameGrid_refl _, rfl, rfl⟩, rfl⟩
    rintro k hk a b ⟨hab, hbd⟩
    have t1 := target_eq ((new nitermax tolpos).setSrcGrid dims per coords) dd dc k hk
    have t2 := target_eq ((new nitermax tolpos).setSrcGrid dims per coords) dd dc' k hk
    have hbd' : b.finder.bounds = some (boxOf dims coords) := hab.grid.bounds ▸ hbd
    rcases h k hk with he | ⟨h1, h2⟩
    · have ht : (((new nitermax tolpos).setSrcGrid dims per coords).setDstGrid dd dc').target k =
          (((new nitermax tolpos).setSrcGrid dims per coords).setDstGrid dd dc).target k := by
        rw [t1, t2]
        congr 1
        exact funext fun a => (he a).symm
      rw [node_congr g (((new nitermax tolpos).setSrcGrid dims per coords).setDstGrid dd dc')
        (((new nitermax tolpos).setSrcGrid dims per coords).setDstGrid dd dc) rfl k ht b]
      have hn := node_same g hg (((new nitermax tolpos).setSrcGrid dims per coords).setDstGrid dd dc) _ rfl rfl k a b hab
      cases e1 : (((new nitermax tolpos).setSrcGrid dims per coords).setDstGrid dd dc).node g k a with
      | error e =>
        cases e2 : (((new nitermax tolpos).setSrcGrid dims per coords).setDstGrid dd dc).node g k b with
        | error e' => rw [e1, e2] at hn; exact hn
        | ok r' => rw [e1, e2] at hn; exact hn.elim
      | ok r =>
        cases e2 : (((new nitermax tolpos).setSrcGrid dims per coords).setDstGrid dd dc).node g k b with
        | error e' => rw [e1, e2] at hn; exact hn.elim
        | ok r' =>
          rw [e1, e2] at hn
          have hf : Ready r.finder ∧ SameGrid a.finder r.finder := by
            refine forFrom_finder g hg (((new nitermax tolpos).setSrcGrid dims per coords).setDstGrid dd dc) 1 k a r hab.ra ?_
            unfold forFrom
            dsimp only
            rw [e1]
            rfl
          exact ⟨hn, hf.2.bounds.trans hbd⟩
    · rw [node_out g _ k a hab.ra _ hbd _ t1 h1, node_out g _ k b hab.rb _ hbd' _ t2 h2]
      exact ⟨⟨hab.ra, hab.rb, ⟨hab.grid.coords, hab.grid.bounds, hab.grid.per, hab.grid.dims, hab.grid.nitermax, hab.grid.tolpos⟩,
        hab.dI, hab.w⟩, hbd⟩
  have e1 : (((new nitermax tolpos).setSrcGrid dims per coords).setDstGrid dd dc).dstNumPoints = dd 0 * dd 1 := rfl
  have e2 : (((new nitermax tolpos).setSrcGrid dims per coords).setDstGrid dd dc').dstNumPoints = dd 0 * dd 1 := rfl
  rw [e1, e2]
  cases h1 : (((new nitermax tolpos).setSrcGrid dims per coords).setDstGrid dd dc).before g (dd 0 * dd 1) with
  | error e =>
    cases h2 : (((new nitermax tolpos).setSrcGrid dims per coords).setDstGrid dd dc').before g (dd 0 * dd 1) with
    | error e' => rw [h1, h2] at hs; simp only [SameCxx] at hs; rw [hs]; rfl
    | ok r' => rw [h1, h2] at hs; exact hs.elim
  | ok r =>
    cases h2 : (((new nitermax tolpos).setSrcGrid dims per coords).setDstGrid dd dc').before g (dd 0 * dd 1) with
    | error e' => rw [h1, h2] at hs; exact hs.elim
    | ok r' =>
      rw [h1, h2] at hs
      have := hs.1.w
      simp only [bind, Except.bind, pure, Except.pure, this]

/-- If all the destination nodes are outside of the bounding box, the table is computed and is empty. -/
theorem out_empty (h : ∀ k < dd 0 * dd 1, OutBox (boxOf dims coords) fun j => dc j k) :
    ∃ o, (((new nitermax tolpos).setSrcGrid dims per coords).setDstGrid dd dc).computeWeights g = .ok o ∧ o.weights = [] := by
  have key : ∀ n ≤ dd 0 * dd 1, ∃ s, (((new nitermax tolpos).setSrcGrid dims per coords).setDstGrid dd dc).before g n = .ok s ∧ s.weights = [] := by
    intro n
    induction n with
    | zero => intro _; exact ⟨_, rfl, rfl⟩
    | succ n ih =>
      intro hn
      obtain ⟨s, h1, h2⟩ := ih (by omega)
      obtain ⟨⟨r1, r2⟩, -⟩ := before_out g hg _ (ready_setGrid _ _ _ _) (boxOf dims coords) rfl n s h1
      rw [before_succ g _ n s h1, node_out g _ n s r1 _ r2 _ (target_eq _ dd dc n (by omega)) (h n (by omega))]
      exact ⟨_, rfl, h2⟩
  obtain ⟨s, h1, h2⟩ := key _ (le_refl _)
  rw [computeWeights_set g _ rfl rfl]
  have e1 : (((new nitermax tolpos).setSrcGrid dims per coords).setDstGrid dd dc).dstNumPoints = dd 0 * dd 1 := rfl
  rw [e1, h1]
  exact ⟨_, rfl, h2⟩

end generic

section ieee
set_option linter.unusedSectionVars false
variable {K : Type} [Field K] [LinearOrder K] [IsStrictOrderedRing K] [FOps K]

theorem le_nan (a : Ieee K) : ¬ a ≤ nan := by cases a <;> exact id
theorem nan_le (a : Ieee K) : ¬ nan ≤ a := by cases a <;> exact id

theorem outBox_nan (b : (Fin 2 → Ieee K) × (Fin 2 → Ieee K)) (t : Fin 2 → Ieee K) (i : Fin 2) (h : t i = nan) : OutBox b t :=
  ⟨i, fun hh => le_nan _ (h ▸ hh.1)⟩

/-- The coordinates of a grid of numbers and NaN: the bounds of the box are numbers or NaN. -/
theorem box_lo (dims : Fin 2 → Nat) (coords : Fin 2 → Nat → Ieee K) (i : Fin 2) (h : ∀ m < ∏ i, dims i, ∀ s, coords i m ≠ inf s) :
    ∀ s, (boxOf dims coords).1 i ≠ inf s := by
  intro s hs
  rcases foldl_pick (fun a b => a < b) (coords i) (List.range (∏ i, dims i)) FOps.big with e | ⟨j, hj, e⟩
  · have : (FOps.big : Ieee K) = inf s := e.symm.trans hs
    cases this
  · exact h j (List.mem_range.1 hj) s (e.symm.trans hs)

theorem box_hi (dims : Fin 2 → Nat) (coords : Fin 2 → Nat → Ieee K) (i : Fin 2) (h : ∀ m < ∏ i, dims i, ∀ s, coords i m ≠ inf s) :
    ∀ s, (boxOf dims coords).2 i ≠ inf s := by
  intro s hs
  rcases foldl_pick (fun a b => b < a) (coords i) (List.range (∏ i, dims i)) (-FOps.big) with e | ⟨j, hj, e⟩
  · have : (-FOps.big : Ieee K) = inf s := e.symm.trans hs
    cases this
  · exact h j (List.mem_range.1 hj) s (e.symm.trans hs)

theorem outBox_inf (dims : Fin 2 → Nat) (coords : Fin 2 → Nat → Ieee K) (t : Fin 2 → Ieee K) (i : Fin 2)
    (h : ∀ m < ∏ i, dims i, ∀ s, coords i m ≠ inf s) (s : Bool) (ht : t i = inf s) : OutBox (boxOf dims coords) t := by
  refine ⟨i, fun ⟨h1, h2⟩ => ?_⟩
  rw [ht] at h1 h2
  have l := box_lo dims coords i h
  have u := box_hi dims coords i h
  cases s
  · cases e : (boxOf dims coords).2 i with
    | nan => rw [e, nan_add] at h2; exact le_nan _ h2
    | inf s => exact u s e
    | fin x =>
      rw [e] at h2
      have : (inf false : Ieee K) ≤ fin (x + FOps.eps100) := h2
      exact Bool.noConfusion this
  · cases e : (boxOf dims coords).1 i with
    | nan => rw [e, nan_sub] at h1; exact nan_le _ h1
    | inf s => exact l s e
    | fin x =>
      rw [e] at h1
      have : (fin (x + -FOps.eps100) : Ieee K) ≤ inf true := h1
      exact Bool.noConfusion this

/-- A loop that meets NaN at `m` ends with NaN or with a value met later. -/
theorem foldl_after (p : Ieee K → Ieee K → Prop) [DecidableRel p] (hp : ∀ a, ¬ p a nan) (hp' : ∀ a, ¬ p nan a) (c : Nat → Ieee K) (N m : Nat)
    (hm : m < N) (hc : c m = nan) (x : Ieee K) :
    (List.range N).foldl (fun m j => if p m (c j) then m else c j) x = nan ∨
      ∃ j, m < j ∧ j < N ∧ (List.range N).foldl (fun m j => if p m (c j) then m else c j) x = c j := by
  obtain ⟨r, rfl⟩ : ∃ r, N = (m + 1) + r := ⟨N - (m + 1), by omega⟩
  rw [List.range_add, List.foldl_append, List.range_succ, List.foldl_append, List.foldl_cons, List.foldl_nil, hc, if_neg (hp _)]
  rcases foldl_pick p c ((List.range r).map (m + 1 + ·)) nan with h | ⟨j, hj, h⟩
  · exact Or.inl h
  · obtain ⟨q, hq, rfl⟩ := List.mem_map.1 hj
    have := List.mem_range.1 hq
    exact Or.inr ⟨_, by omega, by omega, h⟩

/-- A coordinate `x` is left, or right, of the nodes after node `m` along the axis `a`; nodes with a missing coordinate do not count. -/
def Before (dims : Fin 2 → Nat) (coords : Fin 2 → Nat → Ieee K) (a : Fin 2) (m : Nat) (x : K) : Prop :=
  (∀ j, m < j → j < dims 0 * dims 1 → coords a j = nan ∨ ∃ y, coords a j = fin y ∧ x + FOps.eps100 < y) ∨
  (∀ j, m < j → j < dims 0 * dims 1 → coords a j = nan ∨ ∃ y, coords a j = fin y ∧ y + FOps.eps100 < x)

theorem outBox_before (dims : Fin 2 → Nat) (coords : Fin 2 → Nat → Ieee K) (t : Fin 2 → Ieee K) (a : Fin 2) (m : Nat)
    (hm : m < dims 0 * dims 1) (hc : coords a m = nan) (x : K) (ht : t a = fin x) (h : Before dims coords a m x) : OutBox (boxOf dims coords) t := by
  have hp2 : ∏ i, dims i = dims 0 * dims 1 := Fin.prod_univ_two _
  rw [← hp2] at hm
  refine ⟨a, fun ⟨h1, h2⟩ => ?_⟩
  rw [ht] at h1 h2
  rcases h with h | h
  · rcases foldl_after (fun a b : Ieee K => a < b) not_lt_nan not_nan_lt (coords a) _ m hm hc FOps.big with e | ⟨j, j1, j2, e⟩
    · have e' : (boxOf dims coords).1 a = nan := e
      rw [e', nan_sub] at h1
      exact nan_le _ h1
    · have e' : (boxOf dims coords).1 a = coords a j := e
      rw [hp2] at j2
      rcases h j j1 j2 with hn | ⟨y, hy, hxy⟩
      · rw [e', hn, nan_sub] at h1
        exact nan_le _ h1
      · rw [e', hy] at h1
        have h1 : (fin y - fin FOps.eps100 : Ieee K) ≤ fin x := h1
        rw [fin_sub, fin_le] at h1
        linarith
  · rcases foldl_after (fun a b : Ieee K => b < a) not_nan_lt not_lt_nan (coords a) _ m hm hc (-FOps.big) with e | ⟨j, j1, j2, e⟩
    · have e' : (boxOf dims coords).2 a = nan := e
      rw [e', nan_add] at h2
      exact le_nan _ h2
    · have e' : (boxOf dims coords).2 a = coords a j := e
      rw [hp2] at j2
      rcases h j j1 j2 with hn | ⟨y, hy, hxy⟩
      · rw [e', hn, nan_add] at h2
        exact le_nan _ h2
      · rw [e', hy] at h2
        have h2 : (fin x : Ieee K) ≤ fin y + fin FOps.eps100 := h2
        rw [fin_add, fin_le] at h2
        linarith

theorem outBox_last (dims : Fin 2 → Nat) (coords : Fin 2 → Nat → Ieee K) (t : Fin 2 → Ieee K) (a : Fin 2)
    (hm : 0 < dims 0 * dims 1) (hc : coords a (dims 0 * dims 1 - 1) = nan) : OutBox (boxOf dims coords) t := by
  have hp2 : ∏ i, dims i = dims 0 * dims 1 := Fin.prod_univ_two _
  refine ⟨a, fun ⟨h1, _⟩ => ?_⟩
  rcases foldl_after (fun a b : Ieee K => a < b) not_lt_nan not_nan_lt (coords a) (∏ i, dims i) (dims 0 * dims 1 - 1) (by omega) hc FOps.big with
    e | ⟨j, j1, j2, e⟩
  · have e' : (boxOf dims coords).1 a = nan := e
    rw [e', nan_sub] at h1
    exact nan_le _ h1
  · omega

/-- A point with a coordinate that is NaN or infinite. -/
def MissingPoint (t : Fin 2 → Ieee K) : Prop := ∃ a, t a = nan ∨ ∃ s, t a = inf s

theorem missing_out (dims : Fin 2 → Nat) (coords : Fin 2 → Nat → Ieee K) (hinf : ∀ a, ∀ m < dims 0 * dims 1, ∀ s, coords a m ≠ inf s) (t : Fin 2 → Ieee K) (ht : MissingPoint t) :
    OutBox (boxOf dims coords) t := by
  have hp2 : ∏ i, dims i = dims 0 * dims 1 := Fin.prod_univ_two _
  obtain ⟨a, h | ⟨s, h⟩⟩ := ht
  · exact outBox_nan _ _ a h
  · exact outBox_inf dims coords _ a (by rw [hp2]; exact hinf a) s h

variable (g : Gels (Ieee K)) (hg : KeepsSizes g) (nitermax : Int) (tolpos : Ieee K) (dims : Fin 2 → Nat) (per : Fin 2 → Int)
  (coords : Fin 2 → Nat → Ieee K) (dd : Fin 2 → Nat) (dc : Fin 2 → Nat → Ieee K)
include hg

/-- **C137** Any source grid without infinite coordinates, whatever library: a destination node with a coordinate that is NaN or infinite gets
no weights, and its value is left alone. -/
theorem C137_destination (hinf : ∀ a, ∀ m < dims 0 * dims 1, ∀ s, coords a m ≠ inf s) (o : NodeInterp (Ieee K))
    (h : (((new nitermax tolpos).setSrcGrid dims per coords).setDstGrid dd dc).computeWeights g = .ok o) (k : Nat) (hk : k < dd 0 * dd 1)
    (hmiss : MissingPoint fun j => dc j k) :
    (∀ iw, (k, iw) ∉ o.weights) ∧ ∀ src dst d, o.apply src dst = .ok d → d[k]? = dst[k]? :=
  out_no_entry g hg nitermax tolpos dims per coords dd dc o h k hk (missing_out dims coords hinf _ hmiss)

/-- **C137** What the missing coordinates of destination nodes are does not matter to the other nodes: the tables (or the failures) are the same. -/
theorem C137_destination_others (hinf : ∀ a, ∀ m < dims 0 * dims 1, ∀ s, coords a m ≠ inf s) (dc' : Fin 2 → Nat → Ieee K)
    (h : ∀ k < dd 0 * dd 1, (∀ a, dc a k = dc' a k) ∨ MissingPoint (fun j => dc j k) ∧ MissingPoint fun j => dc' j k) :
    (do let r ← (((new nitermax tolpos).setSrcGrid dims per coords).setDstGrid dd dc).computeWeights g
        return r.weights) =
      (do let r ← (((new nitermax tolpos).setSrcGrid dims per coords).setDstGrid dd dc').computeWeights g
          return r.weights) :=
  out_same_table g hg nitermax tolpos dims per coords dd dc dc' fun k hk =>
    (h k hk).imp_right fun hh => ⟨missing_out dims coords hinf _ hh.1, missing_out dims coords hinf _ hh.2⟩

/-- **C137** A source grid with a missing coordinate of node `m`: destination nodes that are left (or right) of all the nodes after `m` get no
weights, although they may lie in cells far from it. -/
theorem C137_source (a : Fin 2) (m : Nat) (hm : m < dims 0 * dims 1) (hc : coords a m = nan) (o : NodeInterp (Ieee K))
    (h : (((new nitermax tolpos).setSrcGrid dims per coords).setDstGrid dd dc).computeWeights g = .ok o) (k : Nat) (hk : k < dd 0 * dd 1)
    (x : K) (hx : dc a k = fin x) (hb : Before dims coords a m x) :
    (∀ iw, (k, iw) ∉ o.weights) ∧ ∀ src dst d, o.apply src dst = .ok d → d[k]? = dst[k]? :=
  out_no_entry g hg nitermax tolpos dims per coords dd dc o h k hk (outBox_before dims coords _ a m hm hc x hx hb)

/-- **C137** A source grid whose last node has a missing coordinate: no destination node gets weights, whatever the destination grid, the
computation has no undefined behaviour, and the data are left alone. -/
theorem C137_source_last (a : Fin 2) (hn : 0 < dims 0 * dims 1) (hc : coords a (dims 0 * dims 1 - 1) = nan) :
    ∃ o, (((new nitermax tolpos).setSrcGrid dims per coords).setDstGrid dd dc).computeWeights g = .ok o ∧ o.weights = [] ∧
      ∀ src dst, o.apply src dst = .ok dst := by
  obtain ⟨o, h1, h2⟩ := out_empty g hg nitermax tolpos dims per coords dd dc fun k _ => outBox_last dims coords _ a hn hc
  refine ⟨o, h1, h2, fun src dst => ?_⟩
  unfold NodeInterp.apply
  rw [h2]
  rfl

end ieee

/-- Cramer's rule for systems of two equations in arithmetic with infinities and NaN. -/
def nanGels2 : Gels (Ieee ℚ) := fun r =>
  let m := fun k => r.a.getD k 0
  let det := m 0 * m 3 - m 2 * m 1
  { a := r.a
    b := if r.b.length = 2 then
      [(r.b.getD 0 0 * m 3 - m 1 * r.b.getD 1 0) / det, (m 0 * r.b.getD 1 0 - r.b.getD 0 0 * m 2) / det] else r.b
    info := 0 }

theorem nanGels2_sizes : KeepsSizes nanGels2 := by
  intro r
  refine ⟨rfl, ?_⟩
  unfold nanGels2
  dsimp only
  split_ifs with h
  · exact h.symm
  · rfl

/-- The nodes `(i, j)` of 4 x 4 nodes at these coordinates, the nodes of a list missing. -/
def holes (l : List Nat) : Fin 2 → Nat → Ieee ℚ := fun i k => if l.contains k then nan else fin (if i = 0 then (k / 4 : Nat) else (k % 4 : Nat))

/-- **C137** is false for source grids.  A grid of 4 x 4 nodes and a destination node at (1/2, 1/2) in the first cell, which has weights; if
the last node is missing the destination node is taken for a node outside.  And a destination node at (5/2, 5/2), in the last cell: if
the node (1, 1), which is not a corner of this cell, is missing, NaN is converted to `int`, which is undefined. -/
theorem C137_source_refuted : ∃ g : Gels (Ieee ℚ), KeepsSizes g ∧
    (∀ q : ℚ, q = 1 / 2 ∨ q = 5 / 2 → ∃ iw, (do
      let o ← (((new 5 (fin (1 / 1000)) : NodeInterp (Ieee ℚ)).setSrcGrid ![4, 4] ![0, 0] (holes [])).setDstGrid ![1, 1] fun _ _ => fin q).computeWeights g
      return o.weights) = .ok [(0, iw)]) ∧
    (do let o ← (((new 5 (fin (1 / 1000)) : NodeInterp (Ieee ℚ)).setSrcGrid ![4, 4] ![0, 0] (holes [15])).setDstGrid ![1, 1] fun _ _ =>
            fin (1 / 2)).computeWeights g
        return o.weights) = .ok [] ∧
    (do let o ← (((new 5 (fin (1 / 1000)) : NodeInterp (Ieee ℚ)).setSrcGrid ![4, 4] ![0, 0] (holes [5])).setDstGrid ![1, 1] fun _ _ =>
            fin (5 / 2)).computeWeights g
        return o.weights) = .error .badCast := by
  refine ⟨nanGels2, nanGels2_sizes, ?_, by decide +kernel, by decide +kernel⟩
  rintro q (rfl | rfl)
  · exact ⟨[(0, fin (1 / 4)), (1, fin (1 / 4)), (4, fin (1 / 4)), (5, fin (1 / 4))], by decide +kernel⟩
  · exact ⟨[(10, fin (1 / 4)), (11, fin (1 / 4)), (14, fin (1 / 4)), (15, fin (1 / 4))], by decide +kernel⟩

/-! ### The hypotheses are met -/

/-- C137: a destination grid of three nodes, the second with a missing coordinate: the others have weights. -/
example : (do
    let o ← (((new 5 (fin (1 / 1000)) : NodeInterp (Ieee ℚ)).setSrcGrid ![4, 4] ![0, 0] (holes [])).setDstGrid ![3, 1] fun i k =>
      if i = 0 ∧ k = 1 then nan else fin (k + 1 / 2)).computeWeights nanGels2
    return o.weights.map Prod.fst) = .ok [0, 2] := by decide +kernel

/-- C137: the node 5 missing, a destination node at (1/4, 1/4) is left of the nodes 6, ..., 15 in the first coordinate. -/
example : Before ![4, 4] (holes [5]) 0 5 (1 / 4) := by
  refine Or.inl fun j h1 h2 => Or.inr ?_
  have h3 : j < 16 := by simpa using h2
  refine ⟨((j / 4 : Nat) : ℚ), ?_, ?_⟩
  · unfold holes
    rw [if_neg (by simp; omega)]
    rfl
  · have h4 : 1 ≤ j / 4 := by omega
    have h5 : (1 : ℚ) ≤ ((j / 4 : Nat) : ℚ) := by exact_mod_cast h4
    have h6 : (FOps.eps100 : ℚ) < 1 / 2 := by simp only [FOps.eps100]; norm_num
    linarith

end Sg.Props
