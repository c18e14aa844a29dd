import Verif.Model.NodeInterpRun
import Verif.Props.FindPointRun
import Verif.Props.NodeRaw
import Verif.Proof.TriangulateRounded
/- Nodal interpolation on vectors compared with the model on functions of the axis. -/
namespace Sg.NodeInterp
open Sg.FindPoint Sg.LinearSolve Sg.Conserve Sg.Props

set_option linter.unusedSectionVars false
variable {F : Type} [Zero F] [One F] [Add F] [Sub F] [Mul F] [Div F] [Neg F] [LT F] [DecidableLT F]
  [LE F] [DecidableLE F] [DecidableEq F] [NatCast F] [IntCast F] [FOps F]

/-- The search on vectors. -/
theorem search_rel {n : Nat} (g : Gels F) (hg : KeepsSizes g) {dims : Fin n → Nat} : ∀ (k : Nat) (s : Raw F), HasGrid dims s → 0 ≤ s.iter →
    s.iter + k ≤ 2147483647 →
    Cxx.Rel (fun a b => a.1 = b.1 ∧ HasGrid dims a.2 ∧ asFinder n a.2 = b.2) (searchV g k s) (searchLoop g k (asFinder n s))
  | 0, s, h, _, _ => .inl ⟨_, _, rfl, rfl, rfl, h, rfl⟩
  | k + 1, s, h, h0, hle => by
    unfold searchV searchLoop
    rcases next_rel g hg h (by omega) (by push_cast at hle; omega) with ⟨⟨c, s'⟩, ⟨c', f'⟩, e1, e2, e3, e4, e5, e6⟩ | ⟨e, e1, e2⟩
    · simp only at e3 e4 e5 e6
      subst e3 e5
      rw [e1, e2]
      simp only [bind, Except.bind]
      have hi : 0 ≤ s'.iter ∧ s'.iter + k ≤ 2147483647 := by
        push_cast at hle
        rcases e6 with e6 | e6
        · omega
        · rw [e6]; omega
      by_cases hc : c = 0
      · rw [if_pos hc, if_pos hc]
        exact search_rel g hg k s' e4 hi.1 hi.2
      · rw [if_neg hc, if_neg hc]
        exact .inl ⟨_, _, rfl, rfl, rfl, e4, rfl⟩
    · rw [e1, e2]
      exact .inr ⟨e, rfl, rfl⟩

/-- Searching from a start position. -/
theorem findTarget_rel (g : Gels F) (hg : KeepsSizes g) {dims : Fin 2 → Nat} {s : Raw F} (h : HasGrid dims s) (hm : s.nitermax ≤ 2147483647)
    {t d : List F} (ht : 2 ≤ t.length) (hd : 2 ≤ d.length) :
    Cxx.Rel (fun a b => a.1 = b.1 ∧ HasGrid dims a.2 ∧ asFinder 2 a.2 = b.2) (findTargetV g s t d)
      (findTarget g (asFinder 2 s) (firstOf 2 t) (firstOf 2 d)) := by
  obtain ⟨s', e1, e2, e3, e4⟩ := reset_hasGrid h hd ht
  unfold findTargetV findTarget
  rw [e1]
  have hf : (asFinder 2 s).fuelOf = (max s.nitermax 1).toNat := rfl
  rw [hf, ← e3]
  show Cxx.Rel _ (do
    let r ← searchV g (max s.nitermax 1).toNat s'
    return (if r.1 > 0 then 0 else r.1, r.2)) _
  refine (search_rel g hg _ s' e2 (by omega) (by omega)).bind ?_
  rintro ⟨c, a⟩ ⟨c', b⟩ ⟨h1, h2, h3⟩
  simp only at h1 h2 h3
  subst h1 h3
  exact .inl ⟨_, _, rfl, rfl, rfl, h2, rfl⟩

/-- The members that a search leaves alone: the limit of steps. -/
theorem findTarget_limit (g : Gels F) (hg : KeepsSizes g) {dims : Fin 2 → Nat} {s s' : Raw F} (h : HasGrid dims s) {t d : List F}
    {c : Int} (ht : 2 ≤ t.length) (hd : 2 ≤ d.length) (hm : s.nitermax ≤ 2147483647) (e : findTargetV g s t d = .ok (c, s')) :
    s'.nitermax = s.nitermax := by
  rcases findTarget_rel g hg h hm ht hd with ⟨⟨c1, s1⟩, ⟨c2, f⟩, e1, e2, -, -, h3⟩ | ⟨u, e1, -⟩
  · rw [e] at e1
    obtain ⟨rfl, rfl⟩ := Prod.mk.inj (Except.ok.inj e1)
    obtain ⟨sl, hsl, hok⟩ := h.slvr
    have hr : Ready (asFinder 2 s) := ⟨⟨_, bounds_asFinder h⟩, ⟨sl, hsl, hok⟩⟩
    have := (findTarget_frame g hg _ _ _ _ _ hr e2).2.1.nitermax
    simp only at h3
    rw [← h3] at this
    exact this
  · rw [e] at e1; cases e1

/-- Table on `size_t` indices. -/
def wrapTable (t : Table F) : VTable F := t.map fun e => (e.1, e.2.map fun p => (wrap p.1, p.2))

theorem wrapTable_insert (t : Table F) (k : Nat) (v : List (Int × F)) :
    wrapTable (t.insert k v) = VTable.insert (wrapTable t) k (v.map fun p => (wrap p.1, p.2)) := by
  induction t with
  | nil => rfl
  | cons e t ih =>
    obtain ⟨k', v'⟩ := e
    simp only [Table.insert, wrapTable, List.map_cons, VTable.insert]
    split_ifs
    · rfl
    · rfl
    · simp only [List.map_cons]
      congr 1

/-- The indices of a table are small. -/
def Small (t : Table F) : Prop := ∀ e ∈ t, ∀ p ∈ e.2, -274877906944 ≤ p.1 ∧ p.1 ≤ 274877906944

theorem small_insert {t : Table F} (h : Small t) (k : Nat) {v : List (Int × F)} (hv : ∀ p ∈ v, -274877906944 ≤ p.1 ∧ p.1 ≤ 274877906944) :
    Small (t.insert k v) := by
  induction t with
  | nil =>
    intro e he
    rw [Table.insert, List.mem_singleton] at he
    subst he
    exact hv
  | cons e t ih =>
    obtain ⟨k', v'⟩ := e
    have h' : Small t := fun e he => h e (List.mem_cons_of_mem _ he)
    have h0 := h (k', v') (List.mem_cons_self ..)
    unfold Table.insert
    split_ifs
    · intro e he
      rcases List.mem_cons.1 he with rfl | he
      · exact hv
      · exact h e he
    · exact h
    · intro e he
      rcases List.mem_cons.1 he with rfl | he
      · exact h0
      · exact ih h' e he

/-- Start for a side, in place. -/
theorem side_rel {c : Fin 2 → Nat} (side : List Int) {d : List F} (hd : d.length = 2) :
    Cxx.Rel (fun L v => L.length = 2 ∧ firstOf 2 L = v) (sideV ((c 0 : Int), (c 1 : Int)) side d) (sideIndices c side) := by
  unfold sideV sideIndices
  rcases forN_axes (fun k (L : List F) => L.length = 2 ∧ ∀ i : Fin 2, (i : Nat) < k →
      (do
        let sd ← vget side i
        let k ← iadd sd 1
        let p ← imul k (c i : Int)
        return (p : F) / (2 : Nat) : Cxx F) = .ok (firstOf 2 L i))
    (fun i d => do
      let sd ← vget side i
      let k ← iadd sd 1
      let p ← imul k (if i = 0 then (c 0 : Int) else (c 1 : Int))
      vset d i ((p : F) / (2 : Nat)))
    (fun i : Fin 2 => (do
      let sd ← vget side i
      let k ← iadd sd 1
      let p ← imul k (c i : Int)
      return (p : F) / (2 : Nat) : Cxx F)) d ⟨hd, fun i hi => by omega⟩ (by
      intro k hk L ⟨hL, hlt⟩
      have hc : (if k = 0 then (c 0 : Int) else (c 1 : Int)) = c ⟨k, hk⟩ := by
        rcases (show k = 0 ∨ k = 1 by omega) with rfl | rfl <;> rfl
      rw [hc]
      rcases e1 : vget side k with e | sd
      · exact .inr ⟨e, rfl, rfl⟩
      rcases e2 : iadd sd 1 with e | q
      · exact .inr ⟨e, by simp only [e2, bind, Except.bind], by simp only [e2, bind, Except.bind]⟩
      rcases e3 : imul q (c ⟨k, hk⟩ : Int) with e | p
      · exact .inr ⟨e, by simp only [e2, e3, bind, Except.bind], by simp only [e2, e3, bind, Except.bind]⟩
      refine .inl ⟨(p : F) / (2 : Nat), L.set k ((p : F) / (2 : Nat)), by simp only [e2, e3, bind, Except.bind]; rfl, ?_, ?_, ?_⟩
      · simp only [e2, e3, bind, Except.bind]
        exact vset_ok (by omega)
      · simpa using hL
      · intro i hi
        have hv := vec_set hL ⟨k, hk⟩ ((p : F) / (2 : Nat))
        have : firstOf 2 (L.set k ((p : F) / (2 : Nat))) i = if i = ⟨k, hk⟩ then (p : F) / (2 : Nat) else vec 2 L i := congrFun hv i
        rw [this]
        by_cases hik : i = ⟨k, hk⟩
        · subst hik
          rw [if_pos rfl]
          simp only [e1, e2, e3, bind, Except.bind]
          rfl
        · rw [if_neg hik]
          exact hlt i (by
            have : (i : Nat) ≠ k := fun hh => hik (Fin.ext hh)
            omega)) with ⟨v, L, a1, a2, a3, a4, a5⟩ | ⟨e, a1, a2⟩
  · refine .inl ⟨L, v, a3, a1, a4, ?_⟩
    funext i
    have h1 := a5 i i.2
    have h2 := a2 i
    exact Except.ok.inj (h1.symm.trans h2)
  · exact .inr ⟨e, a2, a1⟩

/-- The retries. -/
theorem retry_rel (g : Gels F) (hg : KeepsSizes g) {dims : Fin 2 → Nat} (c : Fin 2 → Nat) {t : List F} (ht : 2 ≤ t.length) :
    ∀ (k : Nat) (sit : SideIterator.SideIt) (s : Raw F) (d : List F), HasGrid dims s → s.nitermax ≤ 2147483647 → d.length = 2 →
    Cxx.Rel (fun a b => a.1 = b.1 ∧ HasGrid dims a.2.1 ∧ asFinder 2 a.2.1 = b.2.1 ∧ a.2.2.length = 2 ∧ firstOf 2 a.2.2 = b.2.2 ∧
        a.2.1.nitermax = s.nitermax)
      (retryV g ((c 0 : Int), (c 1 : Int)) t k sit s d) (retry g c (firstOf 2 t) k sit (asFinder 2 s) (firstOf 2 d))
  | 0, _, s, d, h, _, hd => .inl ⟨_, _, rfl, rfl, rfl, h, rfl, hd, rfl, rfl⟩
  | k + 1, sit, s, d, h, hm, hd => by
    unfold retryV retry
    cases hsd : sit.get with
    | error e => exact .inr ⟨e, rfl, rfl⟩
    | ok side =>
      simp only [bind, Except.bind]
      rcases side_rel (c := c) side hd with ⟨L, v, e1, e2, hL, rfl⟩ | ⟨e, e1, e2⟩
      · rw [e1, e2]
        dsimp only
        rcases findTarget_rel g hg h hm ht (show 2 ≤ L.length by omega) with ⟨⟨c1, s1⟩, ⟨c2, f⟩, e3, e4, h1, h2, h3⟩ | ⟨e, e3, e4⟩
        · have hl := findTarget_limit g hg h ht (by omega) hm e3
          simp only at h1 h2 h3
          subst h1 h3
          rw [e3, e4]
          dsimp only
          by_cases hc : sit.next.2 ≠ 1 ∧ c1 ≠ 0
          · rw [if_pos hc, if_pos hc]
            rcases retry_rel g hg c ht k sit.next.1 s1 L h2 (by omega) hL with ⟨a, b, r1, r2, q1, q2, q3, q4, q5, q6⟩ | r
            · exact .inl ⟨a, b, r1, r2, q1, q2, q3, q4, q5, q6.trans hl⟩
            · exact .inr r
          · rw [if_neg hc, if_neg hc]
            exact .inl ⟨_, _, rfl, rfl, rfl, h2, rfl, hL, rfl, hl⟩
        · rw [e3, e4]
          exact .inr ⟨e, rfl, rfl⟩
      · rw [e1, e2]
        exact .inr ⟨e, rfl, rfl⟩

/-- State of the loop on vectors and on functions. -/
structure StateRel (dims : Fin 2 → Nat) (lim : Int) (a : VState F) (b : LoopState F) : Prop where
  grid : HasGrid dims a.finder
  finder : asFinder 2 a.finder = b.finder
  limit : a.finder.nitermax = lim
  len : a.dIndices.length = 2
  start : firstOf 2 a.dIndices = b.dIndices
  table : a.weights = wrapTable b.weights
  small : Small b.weights

/-- The indices of the corners of a cell. -/
theorem weights_small {dims : Fin 2 → Nat} {s : Raw F} (h : HasGrid dims s) {iw : List (Int × F)}
    (e : FindPoint.getSrcIndicesAndWeights dims (vec 2 s.dIndices) = .ok iw) : ∀ p ∈ iw, -274877906944 ≤ p.1 ∧ p.1 ≤ 274877906944 := by
  unfold FindPoint.getSrcIndicesAndWeights at e
  obtain ⟨lo, e1, e2⟩ := bind_ok_inv e
  simp only [pure, Except.pure, Except.ok.injEq] at e2
  intro p hp
  rw [← e2] at hp
  obtain ⟨j, -, rfl⟩ := List.mem_map.1 hp
  have := corner_le h.shape e1 j
  push_cast at this
  omega

/-- One destination node. -/
theorem node_rel (g : Gels F) (hg : KeepsSizes g) {dims : Fin 2 → Nat} {lim : Int} (hm : lim ≤ 2147483647) {src dst : RGrid F} {o : NodeInterp F}
    {N k : Nat} (hk : k < N) (hN : 2 * N ≤ 1152921504606846975) (hlen : dst.coords.length = 2 * N)
    (hc : src.cellDims = ((o.srcCellDims 0 : Int), (o.srcCellDims 1 : Int))) (hd : dst.coords = o.dstGrdCoords)
    {a : VState F} {b : LoopState F} (h : StateRel dims lim a b) : Cxx.Rel (StateRel dims lim) (nodeV g src dst k a) (o.node g k b) := by
  have h2 : smul k 2 = k * 2 := by unfold smul; rw [Nat.mod_eq_of_lt (by omega)]
  have htl : 2 ≤ (dst.coords.drop (k * 2)).length := by rw [List.length_drop]; omega
  have htar : o.target k = .ok (firstOf 2 (dst.coords.drop (k * 2))) := by
    unfold NodeInterp.target
    refine forAxes_ok _ _ fun j => ?_
    have hj := j.2
    rw [← hd]
    have := vec_get (n := 2) (l := (dst.coords.drop (k * 2)).take 2) (by rw [List.length_take]; omega) j
    refine vget_eq_ok.2 ?_
    rw [List.getElem?_eq_getElem (by omega)]
    simp only [firstOf, List.getD_eq_getElem?_getD, List.getElem?_drop]
    rw [List.getElem?_eq_getElem (by omega), Option.getD_some]
  unfold nodeV NodeInterp.node
  rw [h2, htar]
  simp only [bind, Except.bind]
  rw [← h.start, ← h.finder]
  have hl := h.len
  rcases findTarget_rel g hg h.grid (by rw [h.limit]; exact hm) htl (show 2 ≤ a.dIndices.length by omega) with
    ⟨⟨c1, s1⟩, ⟨c2, f⟩, e3, e4, h1, hG, h3⟩ | ⟨e, e3, e4⟩
  swap
  · rw [e3, e4]
    exact .inr ⟨e, rfl, rfl⟩
  have hlim : s1.nitermax = lim := (findTarget_limit g hg h.grid htl (by omega) (by rw [h.limit]; exact hm) e3).trans h.limit
  simp only at h1 hG h3
  subst h1 h3
  rw [e3, e4]
  dsimp only
  by_cases hc0 : c1 = 0
  · rw [if_pos hc0, if_pos hc0, getSrc_eq hG.shape hG.few hG.sized.dIndices, dims_asFinder hG.shape]
    rw [show (asFinder 2 s1).dIndices = vec 2 s1.dIndices from rfl]
    cases e5 : FindPoint.getSrcIndicesAndWeights dims (vec 2 s1.dIndices) with
    | error e => exact .inr ⟨e, rfl, rfl⟩
    | ok iw =>
      refine .inl ⟨_, _, rfl, rfl, hG, rfl, hlim, h.len, rfl, ?_, small_insert h.small k (weights_small hG e5)⟩
      show VTable.insert a.weights k _ = wrapTable (b.weights.insert k iw)
      rw [wrapTable_insert, h.table]
  rw [if_neg hc0, if_neg hc0]
  by_cases hc3 : c1 = -3
  · rw [if_pos hc3, if_pos hc3]
    have g0 : ∃ x, vget (dst.coords.drop (k * 2)) 0 = .ok x := ⟨_, vget_ok (by omega)⟩
    have g1 : ∃ x, vget (dst.coords.drop (k * 2)) 1 = .ok x := ⟨_, vget_ok (by omega)⟩
    obtain ⟨x0, g0⟩ := g0
    obtain ⟨x1, g1⟩ := g1
    have l1 := hG.sized.xmins
    have l2 := hG.sized.xmaxs
    have gd : s1.getSrcDomain = .ok (s1.xmins, s1.xmaxs) := by
      unfold Raw.getSrcDomain
      rw [if_neg]
      rintro (hx | hx)
      · rw [hx] at l1; simp at l1
      · rw [hx] at l2; simp at l2
    simp only [g0, g1, gd, vget_ok (show 0 < s1.xmins.length by omega), vget_ok (show 1 < s1.xmins.length by omega),
      vget_ok (show 0 < s1.xmaxs.length by omega), vget_ok (show 1 < s1.xmaxs.length by omega)]
    exact .inl ⟨_, _, rfl, rfl, hG, rfl, hlim, h.len, rfl, h.table, h.small⟩
  rw [if_neg hc3, if_neg hc3]
  cases SideIterator.new 2 with
  | error e => exact .inr ⟨e, rfl, rfl⟩
  | ok sit =>
    dsimp only
    rw [hc]
    rcases retry_rel g hg o.srcCellDims htl 9 sit.reset s1 a.dIndices hG (by omega) h.len with
      ⟨⟨i1, f1, d1⟩, ⟨i2, f2, d2⟩, r1, r2, q1, q2, q3, q4, q5, q6⟩ | ⟨e, r1, r2⟩
    swap
    · rw [r1, r2]
      exact .inr ⟨e, rfl, rfl⟩
    simp only at q1 q2 q3 q4 q5 q6
    subst q1 q3 q5
    rw [r1, r2]
    dsimp only
    by_cases hi : i1 ≠ 0
    · rw [if_pos hi, if_pos hi]
      have g0 : ∃ x, vget (dst.coords.drop (k * 2)) 0 = .ok x := ⟨_, vget_ok (by omega)⟩
      have g1 : ∃ x, vget (dst.coords.drop (k * 2)) 1 = .ok x := ⟨_, vget_ok (by omega)⟩
      obtain ⟨x0, g0⟩ := g0
      obtain ⟨x1, g1⟩ := g1
      simp only [g0, g1]
      rcases getPosition_rel q2 with ⟨L, v, p1, p2, p3, p4⟩ | ⟨e, p1, p2⟩
      · rw [p1, p2]
        dsimp only
        rw [vget_ok (show 0 < L.length by omega), vget_ok (show 1 < L.length by omega), getError_eq q2]
        dsimp only
        cases (asFinder 2 f1).getError with
        | error e => exact .inr ⟨e, rfl, rfl⟩
        | ok x => exact .inl ⟨_, _, rfl, rfl, q2, rfl, q6.trans hlim, q4, rfl, h.table, h.small⟩
      · rw [p1, p2]
        exact .inr ⟨e, rfl, rfl⟩
    · rw [if_neg hi, if_neg hi]
      exact .inl ⟨_, _, rfl, rfl, q2, rfl, q6.trans hlim, q4, rfl, h.table, h.small⟩

/-! ### Applying a table -/

theorem vget_wrap_large {α : Type} (l : List α) (hl : l.length ≤ 1152921504606846975) {x : Int} (h1 : -274877906944 ≤ x) (h2 : x ≤ 274877906944) :
    vget l (wrap x) = vgetI l x := by
  unfold vgetI
  split_ifs with h
  · have : wrap x = x.toNat := by unfold wrap; omega
    rw [this]
  · unfold vget
    have : l.length ≤ wrap x := by unfold wrap; omega
    rw [List.getElem?_eq_none this]

theorem foldlM_eq {α β γ : Type} (f : γ → α → Cxx γ) (f' : γ → β → Cxx γ) (h : β → α) : ∀ (l : List β) (s : γ), (∀ s, ∀ e ∈ l, f s (h e) = f' s e) →
    (l.map h).foldlM f s = l.foldlM f' s
  | [], _, _ => rfl
  | e :: l, s, hl => by
    rw [List.map_cons, List.foldlM_cons, List.foldlM_cons, hl s e (List.mem_cons_self ..)]
    congr 1
    funext s'
    exact foldlM_eq f f' h l s' fun s e he => hl s e (List.mem_cons_of_mem _ he)

theorem apply_eq {t : Table F} (ht : Small t) {srcData : List F} (hs : srcData.length ≤ 1152921504606846975) (dstData : List F) :
    (wrapTable t).foldlM (fun dst e => applyV srcData e.1 e.2 dst) dstData = t.foldlM (fun dst e => applyEntry srcData e.1 e.2 dst) dstData := by
  refine foldlM_eq _ _ _ t dstData fun dst e he => ?_
  unfold applyV applyEntry
  congr 1
  funext d
  refine foldlM_eq _ _ _ e.2 d fun s p hp => ?_
  obtain ⟨a, b⟩ := ht e he p hp
  simp only [vget_wrap_large srcData hs a b]

end Sg.NodeInterp
