import Verif.Proof.FlowWeights
import Verif.Spec.FlowGrid
/- Flow interpolation: histories of calls. -/
namespace Sg.FlowInterp
open Sg.LinearSolve Sg.Triangulate Sg.QuadIntersect Sg.FindPoint Sg.QuadLine Sg.QuadFlows Sg.BoxIterator Sg.Spec Sg.Props

section
set_option linter.unusedSectionVars false
variable {F : Type} [Zero F] [One F] [Add F] [Sub F] [Mul F] [Div F] [Neg F] [LT F] [DecidableLT F]
  [LE F] [DecidableLE F] [DecidableEq F] [NatCast F] [IntCast F] [FOps F]

/-- A table with keys below `N` and cells below `M`. -/
structure TableIn (N M : Nat) (t : Weights F) : Prop where
  ok : TableOk t
  lt : ∀ e ∈ t, e.1 < N ∧ ∀ c ∈ e.2, c.1 < M

theorem tableIn_nil (N M : Nat) : TableIn N M ([] : Weights F) := ⟨tableOk_nil, by simp⟩

theorem TableIn.push {N M : Nat} {t : Weights F} (h : TableIn N M t) {k c : Nat} (hk : k < N) (hc : c < M) (w : Fin 4 → F) :
    TableIn N M (Weights.push t k (c, w)) := by
  refine ⟨push_ok h.ok _ _, fun e he => ?_⟩
  rcases (mem_push he).2 with ⟨b, hb, rfl⟩ | ⟨h1, l, h2, h3⟩
  · exact h.lt b hb
  · refine ⟨by rw [h1]; exact hk, fun p hp => ?_⟩
    rw [h2, List.mem_append] at hp
    rcases hp with hp | hp
    · rcases h3 with rfl | h3
      · cases hp
      · exact (h.lt _ h3).2 p hp
    · rw [List.mem_singleton] at hp
      subst hp; exact hc

theorem TableIn.mono {N M N' M' : Nat} {t : Weights F} (h : TableIn N M t) (hN : N ≤ N') (hM : M ≤ M') : TableIn N' M' t :=
  ⟨h.ok, fun e he => ⟨(h.lt e he).1.trans_le hN, fun c hc => ((h.lt e he).2 c hc).trans_le hM⟩⟩

theorem TableIn.entries {N M : Nat} {t : Weights F} (h : TableIn N M t) {k : Nat} (hk : entries t k ≠ []) :
    k < N ∧ ∀ c ∈ FlowInterp.entries t k, c.1 < M := by
  have := h.lt _ (mem_of_entries hk)
  exact this

theorem srcStep_table {g : Gels F} {srt : List F → List F} {src : Src F} {N M i j : Nat} (hi : i < N) (hj : j < M) {w w' : Work F}
    (h : TableIn N M w.weights) (e : srcStep g srt src i j w = .ok w') : TableIn N M w'.weights := by
  unfold srcStep at e
  obtain ⟨q, -, e⟩ := bind_ok_inv e
  obtain ⟨o, -, e⟩ := bind_ok_inv e
  cases o with
  | false => cases e; exact h
  | true =>
    simp only [Bool.not_true, Bool.false_eq_true, if_false] at e
    obtain ⟨r, -, e⟩ := bind_ok_inv e
    split_ifs at e
    · obtain ⟨f, -, e⟩ := bind_ok_inv e
      cases e
      exact h.push hi hj _
    · cases e; exact h

theorem compute_table {g : Gels F} {srt : List F → List F} {o o' : Flow F} (e : o.computeWeights g srt = .ok o') :
    o'.src = o.src ∧ o'.dst = o.dst ∧ (∃ d, o.dst = some d ∧ (d.numCells = 0 ∨ ∃ s, o.src = some s)) ∧
      ∀ N M, (∀ d, o.dst = some d → d.numCells ≤ N) → (∀ s, o.src = some s → s.numCells ≤ M) → TableIn N M o.weights →
        TableIn N M o'.weights := by
  unfold Flow.computeWeights at e
  cases hd : o.dst with
  | none => rw [hd] at e; cases e
  | some dst =>
    cases hs : o.src with
    | none =>
      rw [hd, hs] at e
      dsimp only at e
      by_cases h0 : dst.numCells = 0
      · rw [if_pos h0] at e
        cases e
        exact ⟨hs, hd, ⟨dst, rfl, Or.inl h0⟩, fun N M _ _ h => h⟩
      · rw [if_neg h0] at e
        cases e
    | some src =>
      rw [hd, hs] at e
      obtain ⟨w, e1, e⟩ := bind_ok_inv e
      cases e
      refine ⟨rfl, rfl, ⟨dst, rfl, Or.inr ⟨src, rfl⟩⟩, fun N M hN hM ht => ?_⟩
      have hN := hN dst rfl
      have hM := hM src rfl
      refine forN_inv_ok (fun _ (w : Work F) => TableIn N M w.weights) _ _ _ w ht ?_ e1
      intro k s s' hk hs e
      unfold dstStep at e
      obtain ⟨ab, -, e⟩ := bind_ok_inv e
      refine forN_inv_ok (fun _ (w : Work F) => TableIn N M w.weights) _ _ _ s' ?_ ?_ e
      · exact hs
      · intro j t t' hj ht e
        exact srcStep_table (hk.trans_le hN) (hj.trans_le hM) ht e

theorem setSrc_frame {o o' : Flow F} {n0 n1 : Nat} {x y : List F} (e : o.setSrcGrid (n0, n1) x y = .ok o') :
    o'.dst = o.dst ∧ o'.weights = o.weights ∧ ∀ s, o'.src = some s → s.numCells ≤ 2147483647 := by
  unfold Flow.setSrcGrid at e
  obtain ⟨np, -, e⟩ := bind_ok_inv e
  obtain ⟨nc, h1, e⟩ := bind_ok_inv e
  obtain ⟨_, -, e⟩ := bind_ok_inv e
  obtain ⟨_, -, e⟩ := bind_ok_inv e
  obtain ⟨_, -, e⟩ := bind_ok_inv e
  obtain ⟨_, -, e⟩ := bind_ok_inv e
  obtain ⟨_, -, e⟩ := bind_ok_inv e
  obtain ⟨_, -, e⟩ := bind_ok_inv e
  cases e
  refine ⟨rfl, rfl, fun s hs => ?_⟩
  cases hs
  unfold imul chk at h1
  split_ifs at h1 with h
  cases h1
  obtain ⟨h1, h2⟩ := h
  dsimp only at h2 ⊢
  omega

theorem setDst_frame {pert : Nat → Nat → Nat → F} {o o' : Flow F} {n : Nat} {x y : List F}
    (e : o.setDstGrid pert n x y = .ok o') :
    o'.src = o.src ∧ o'.weights = o.weights ∧ ∀ d, o'.dst = some d → d.numCells = n - 1 := by
  unfold Flow.setDstGrid at e
  obtain ⟨_, -, e⟩ := bind_ok_inv e
  obtain ⟨_, -, e⟩ := bind_ok_inv e
  cases e
  refine ⟨rfl, rfl, fun d hd => ?_⟩
  cases hd
  rfl

theorem sideStep_length {src : Src F} {x y : List F} {i0 i1 : Int} {k side : Nat} {w : Fin 4 → F} {d d' : List F}
    (e : sideStep src x y i0 i1 k w side d = .ok d') : d'.length = d.length := by
  unfold sideStep at e
  obtain ⟨_, -, e⟩ := bind_ok_inv e
  obtain ⟨_, -, e⟩ := bind_ok_inv e
  obtain ⟨_, -, e⟩ := bind_ok_inv e
  obtain ⟨_, -, e⟩ := bind_ok_inv e
  obtain ⟨_, -, e⟩ := bind_ok_inv e
  unfold vset at e
  split_ifs at e
  cases e
  simp

/-- A run of `apply` that ends has written to every key. -/
theorem apply_keys {o : Flow F} {x y d d' : List F} (e : o.apply x y d = .ok d') : ∀ a ∈ o.weights, a.1 < d.length := by
  unfold Flow.apply at e
  revert e
  generalize o.weights = t
  induction t generalizing d with
  | nil => simp
  | cons c t ih =>
    intro e
    rw [List.foldlM_cons] at e
    obtain ⟨d1, e1, e⟩ := bind_ok_inv e
    obtain ⟨d0, e0, e1⟩ := bind_ok_inv e1
    have hv : c.1 < d.length ∧ d0.length = d.length := by
      unfold vset at e0
      split_ifs at e0 with h
      cases e0
      exact ⟨h, by simp⟩
    have hl : d1.length = d0.length := by
      revert e1
      generalize c.2 = l
      clear hv e0
      induction l generalizing d0 with
      | nil => intro h; cases h; rfl
      | cons p l ih =>
        intro h
        rw [List.foldlM_cons] at h
        obtain ⟨d2, h2, h⟩ := bind_ok_inv h
        rw [ih d2 h]
        cases hs : o.src with
        | none => rw [hs] at h2; cases h2
        | some src =>
          rw [hs] at h2
          obtain ⟨_, -, h2⟩ := bind_ok_inv h2
          obtain ⟨_, -, h2⟩ := bind_ok_inv h2
          obtain ⟨_, -, h2⟩ := bind_ok_inv h2
          exact forN_inv_ok (fun _ (a : List F) => a.length = d0.length) _ _ _ d2 rfl
            (fun k s s' _ h e => (sideStep_length e).trans h) h2
    intro a ha
    rcases List.mem_cons.mp ha with rfl | ha
    · exact hv.1
    · have := ih e a ha
      omega

theorem setSrc_eq (o : Flow F) (d : Nat × Nat) (x y : List F) :
    o.setSrcGrid d x y = (Flow.new : Flow F).setSrcGrid d x y >>= fun p => .ok { o with src := p.src } := by
  unfold Flow.setSrcGrid
  simp only [bind, Except.bind, pure, Except.pure]
  cases imul d.1 d.2 with
  | error e => rfl
  | ok _ =>
  dsimp only
  cases imul ((d.1 : Int) - 1) ((d.2 : Int) - 1) with
  | error e => rfl
  | ok _ =>
  dsimp only
  cases BoxIterator.new [(0, (d.1 : Int)), (0, (d.2 : Int))] with
  | error e => rfl
  | ok _ =>
  dsimp only
  cases BoxIterator.new [(0, (d.1 : Int) - 1), (0, (d.2 : Int) - 1)] with
  | error e => rfl
  | ok _ =>
  dsimp only
  cases BoxIterator.new [(0, (d.1 : Int) - 1), (0, (d.2 : Int))] with
  | error e => rfl
  | ok _ =>
  dsimp only
  cases BoxIterator.new [(0, (d.1 : Int)), (0, (d.2 : Int) - 1)] with
  | error e => rfl
  | ok _ =>
  dsimp only
  split
  · rfl
  · split <;> rfl

theorem setDst_eq (pert : Nat → Nat → Nat → F) (o : Flow F) (n : Nat) (x y : List F) :
    o.setDstGrid pert n x y = (Flow.new : Flow F).setDstGrid pert n x y >>= fun p => .ok { o with dst := p.dst } := by
  unfold Flow.setDstGrid
  simp only [bind, Except.bind, pure, Except.pure]
  split
  · rfl
  · split <;> rfl

theorem sideStep_frame {src : Src F} {x y : List F} {i0 i1 : Int} {k side : Nat} {w : Fin 4 → F} {d d' : List F}
    (e : sideStep src x y i0 i1 k w side d = .ok d') {j : Nat} (hj : k ≠ j) : d'[j]? = d[j]? := by
  unfold sideStep at e
  obtain ⟨_, -, e⟩ := bind_ok_inv e
  obtain ⟨_, -, e⟩ := bind_ok_inv e
  obtain ⟨_, -, e⟩ := bind_ok_inv e
  obtain ⟨_, -, e⟩ := bind_ok_inv e
  obtain ⟨_, -, e⟩ := bind_ok_inv e
  unfold vset at e
  split_ifs at e
  cases e
  exact List.getElem?_set_ne hj

/-- A run of `apply` that ends has written only to keys. -/
theorem apply_frame {o : Flow F} {x y d d' : List F} (e : o.apply x y d = .ok d') {k : Nat} (hk : ∀ a ∈ o.weights, a.1 ≠ k) :
    d'[k]? = d[k]? := by
  unfold Flow.apply at e
  revert e hk
  generalize o.weights = t
  induction t generalizing d with
  | nil => intro e _; cases e; rfl
  | cons c t ih =>
    intro e hk
    rw [List.foldlM_cons] at e
    obtain ⟨d1, e1, e⟩ := bind_ok_inv e
    obtain ⟨d0, e0, e1⟩ := bind_ok_inv e1
    have hck := hk c (List.mem_cons_self ..)
    have hv : d0[k]? = d[k]? := by
      unfold vset at e0
      split_ifs at e0 with h
      cases e0
      exact List.getElem?_set_ne hck
    have hl : d1[k]? = d0[k]? := by
      revert e1
      generalize c.2 = l
      clear hv e0
      induction l generalizing d0 with
      | nil => intro h; cases h; rfl
      | cons p l ih =>
        intro h
        rw [List.foldlM_cons] at h
        obtain ⟨d2, h2, h⟩ := bind_ok_inv h
        rw [ih d2 h]
        cases hs : o.src with
        | none => rw [hs] at h2; cases h2
        | some src =>
          rw [hs] at h2
          obtain ⟨_, -, h2⟩ := bind_ok_inv h2
          obtain ⟨_, -, h2⟩ := bind_ok_inv h2
          obtain ⟨_, -, h2⟩ := bind_ok_inv h2
          exact forN_inv_ok (fun _ (a : List F) => a[k]? = d0[k]?) _ _ _ d2 rfl
            (fun _ s s' _ h e => (sideStep_frame e hck).trans h) h2
    rw [ih e (fun a ha => hk a (List.mem_cons_of_mem _ ha)), hl, hv]

end
end Sg.FlowInterp
