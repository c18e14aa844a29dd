import Verif.Proof.NodeInterp
/-
Properties C38-C41 of the nodal interpolation.  `F` is any type with operations, no law assumed; `K` is an ordered field
with a floor.  `g` stands for the linear algebra library.
-/
namespace Sg.Props
open Sg Sg.FindPoint Sg.LinearSolve Sg.Spec Sg.NodeInterp

section generic
set_option linter.unusedSectionVars false
variable {F : Type} [Zero F] [One F] [Add F] [Sub F] [Mul F] [Div F] [Neg F] [LT F] [DecidableLT F]
  [LE F] [DecidableLE F] [DecidableEq F] [NatCast F] [IntCast F] [FOps F]

/-- Calls a user may make on a nodal interpolator after the source grid is set. -/
inductive NodeCall (F : Type)
  | setDst (dims : Fin 2 → Nat) (coords : Fin 2 → Nat → F)
  | compute

/-- Effect of a call. -/
def NodeCall.exec (g : Gels F) (o : NodeInterp F) : NodeCall F → Cxx (NodeInterp F)
  | .setDst dims coords => .ok (o.setDstGrid dims coords)
  | .compute => o.computeWeights g

/-- A sequence of calls. -/
def runNode (g : Gels F) : NodeInterp F → List (NodeCall F) → Cxx (NodeInterp F)
  | o, [] => .ok o
  | o, c :: cs => do let o' ← c.exec g o; runNode g o' cs

theorem forFrom_finder (g : Gels F) (hg : KeepsSizes g) (o : NodeInterp F) : ∀ (m start : Nat) (a b : LoopState F),
    Ready a.finder → forFrom start m a (fun i s => o.node g i s) = .ok b → Ready b.finder ∧ SameGrid a.finder b.finder
  | 0, start, a, b, hr, h => by
    simp only [forFrom, Except.ok.injEq] at h
    subst h
    exact ⟨hr, sameGrid_refl _⟩
  | m + 1, start, a, b, hr, h => by
    unfold forFrom at h
    dsimp only at h
    cases h1 : o.node g start a with
    | error e => rw [h1] at h; cases h
    | ok s1 =>
      rw [h1] at h
      dsimp only at h
      have step : Ready s1.finder ∧ SameGrid a.finder s1.finder := by
        unfold NodeInterp.node at h1
        obtain ⟨t, _, h1⟩ := bind_ok_inv h1
        obtain ⟨⟨c, f⟩, hf, h1⟩ := bind_ok_inv h1
        obtain ⟨r1, q1, _⟩ := findTarget_frame g hg a.finder t a.dIndices c f hr hf
        dsimp only at h1
        split_ifs at h1
        · obtain ⟨iw, _, h1⟩ := bind_ok_inv h1
          simp only [pure, Except.pure, Except.ok.injEq] at h1
          subst h1; exact ⟨r1, q1⟩
        · simp only [pure, Except.pure, Except.ok.injEq] at h1
          subst h1; exact ⟨r1, q1⟩
        · obtain ⟨sit, _, h1⟩ := bind_ok_inv h1
          obtain ⟨⟨c2, f2, d2⟩, h2, h1⟩ := bind_ok_inv h1
          have hs := retry_same g hg o.srcCellDims t 9 sit.reset f f a.dIndices (by norm_num) r1 r1 (sameGrid_refl _)
          have hq : Ready f2 ∧ SameGrid a.finder f2 := by
            have gen : ∀ (fuel : Nat) (sit : SideIterator.SideIt) (f : Finder F 2) (d : Fin 2 → F) (c2 : Int) (f2 : Finder F 2)
                (d2 : Fin 2 → F), Ready f → SameGrid a.finder f → retry g o.srcCellDims t fuel sit f d = .ok (c2, f2, d2) →
                Ready f2 ∧ SameGrid a.finder f2 := by
              intro fuel
              induction fuel with
              | zero =>
                intro sit f d c2 f2 d2 hr hq h
                simp only [retry, Except.ok.injEq, Prod.mk.injEq] at h
                obtain ⟨_, rfl, _⟩ := h
                exact ⟨hr, hq⟩
              | succ fuel ih =>
                intro sit f d c2 f2 d2 hr hq h
                unfold retry at h
                obtain ⟨side, _, h⟩ := bind_ok_inv h
                obtain ⟨d1, _, h⟩ := bind_ok_inv h
                obtain ⟨⟨c3, f3⟩, h3, h⟩ := bind_ok_inv h
                obtain ⟨r3, q3, _⟩ := findTarget_frame g hg f t d1 c3 f3 hr h3
                dsimp only at h
                split at h
                · exact ih _ _ _ _ _ _ r3 (sameGrid_trans hq q3) h
                · simp only [pure, Except.pure, Except.ok.injEq, Prod.mk.injEq] at h
                  obtain ⟨_, rfl, _⟩ := h
                  exact ⟨r3, sameGrid_trans hq q3⟩
            exact gen 9 _ _ _ _ _ _ r1 q1 h2
          dsimp only at h1
          split_ifs at h1
          · obtain ⟨_, _, h1⟩ := bind_ok_inv h1
            obtain ⟨_, _, h1⟩ := bind_ok_inv h1
            simp only [pure, Except.pure, Except.ok.injEq] at h1
            subst h1; exact hq
          · simp only [pure, Except.pure, Except.ok.injEq] at h1
            subst h1; exact hq
      obtain ⟨r, q⟩ := forFrom_finder g hg o m (start + 1) s1 b step.1 h
      exact ⟨r, sameGrid_trans step.2 q⟩

/-- Weights are computed for objects with both grids set only. -/
theorem computeWeights_inv (g : Gels F) (o o1 : NodeInterp F) (h : o.computeWeights g = .ok o1) :
    o.srcSet = true ∧ o.dstSet = true ∧
      (do let s ← o.before g o.dstNumPoints
          return { o with finder := s.finder, weights := s.weights } : Cxx (NodeInterp F)) = .ok o1 := by
  unfold NodeInterp.computeWeights at h
  split_ifs at h with hs
  rw [Bool.and_eq_true] at hs
  exact ⟨hs.1, hs.2, h⟩

theorem computeWeights_set (g : Gels F) (o : NodeInterp F) (h1 : o.srcSet = true) (h2 : o.dstSet = true) :
    o.computeWeights g = (do let s ← o.before g o.dstNumPoints
                             return { o with finder := s.finder, weights := s.weights }) := by
  unfold NodeInterp.computeWeights
  rw [h1, h2]; rfl

theorem runNode_same (g : Gels F) (hg : KeepsSizes g) : ∀ (cs : List (NodeCall F)) (o0 o : NodeInterp F), Ready o0.finder →
    runNode g o0 cs = .ok o → Ready o.finder ∧ SameGrid o0.finder o.finder ∧ o.srcCellDims = o0.srcCellDims ∧
      o.srcSet = o0.srcSet
  | [], o0, o, hr, h => by
    simp only [runNode, Except.ok.injEq] at h
    subst h; exact ⟨hr, sameGrid_refl _, rfl, rfl⟩
  | c :: cs, o0, o, hr, h => by
    unfold runNode at h
    obtain ⟨o1, h1, h⟩ := bind_ok_inv h
    have step : Ready o1.finder ∧ SameGrid o0.finder o1.finder ∧ o1.srcCellDims = o0.srcCellDims ∧
        o1.srcSet = o0.srcSet := by
      cases c with
      | setDst dims coords =>
        simp only [NodeCall.exec, Except.ok.injEq] at h1
        subst h1; exact ⟨hr, sameGrid_refl _, rfl, rfl⟩
      | compute =>
        simp only [NodeCall.exec] at h1
        obtain ⟨_, _, h1⟩ := computeWeights_inv g o0 o1 h1
        obtain ⟨s, hs, h1⟩ := bind_ok_inv h1
        simp only [pure, Except.pure, Except.ok.injEq] at h1
        subst h1
        unfold NodeInterp.before forN at hs
        obtain ⟨a, b⟩ := forFrom_finder g hg o0 _ 0 _ s hr hs
        exact ⟨a, b, rfl, rfl⟩
    obtain ⟨a, b, c, d⟩ := runNode_same g hg cs o1 o step.1 h
    exact ⟨a, sameGrid_trans step.2.1 b, c.trans step.2.2.1, d.trans step.2.2.2⟩

/-- **C40** Whatever destination grids were set and weights computed before on a source grid, setting a destination grid
and computing the weights gives the table (or the failure) that a newly built interpolator gives. -/
theorem C40_fresh (g : Gels F) (hg : KeepsSizes g) (nitermax : Int) (tolpos : F) (dims : Fin 2 → Nat) (per : Fin 2 → Int)
    (coords : Fin 2 → Nat → F) (cs : List (NodeCall F)) (o : NodeInterp F)
    (hrun : runNode g ((new nitermax tolpos).setSrcGrid dims per coords) cs = .ok o)
    (dd : Fin 2 → Nat) (dc : Fin 2 → Nat → F) :
    (do let r ← (o.setDstGrid dd dc).computeWeights g; return r.weights) =
      (do let r ← (((new nitermax tolpos).setSrcGrid dims per coords).setDstGrid dd dc).computeWeights g
          return r.weights) := by
  obtain ⟨hr, hq, hc, hss⟩ := runNode_same g hg cs _ o (ready_setGrid _ _ _ _) hrun
  have hs := before_same g hg (o.setDstGrid dd dc) (((new nitermax tolpos).setSrcGrid dims per coords).setDstGrid dd dc)
    hc rfl hr (ready_setGrid _ _ _ _) hq (dd 0 * dd 1)
  rw [computeWeights_set g (o.setDstGrid dd dc) hss rfl, computeWeights_set g (((new nitermax tolpos).setSrcGrid dims per
    coords).setDstGrid dd dc) rfl rfl]
  have e1 : (o.setDstGrid dd dc).dstNumPoints = dd 0 * dd 1 := rfl
  have e2 : (((new nitermax tolpos).setSrcGrid dims per coords).setDstGrid dd dc).dstNumPoints = dd 0 * dd 1 := rfl
  rw [e1, e2]
  cases h1 : (o.setDstGrid dd dc).before g (dd 0 * dd 1) with
  | error e =>
    cases h2 : (((new nitermax tolpos).setSrcGrid dims per coords).setDstGrid dd dc).before g (dd 0 * dd 1) with
    | error e' => rw [h1, h2] at hs; simp only [SameCxx] at hs; rw [hs]; rfl
    | ok r' => rw [h1, h2] at hs; exact hs.elim
  | ok r =>
    cases h2 : (((new nitermax tolpos).setSrcGrid dims per coords).setDstGrid dd dc).before g (dd 0 * dd 1) with
    | error e' => rw [h1, h2] at hs; exact hs.elim
    | ok r' =>
      rw [h1, h2] at hs
      have := hs.w
      simp only [bind, Except.bind, pure, Except.pure, this]

/-- **C40** Computing the weights twice gives the same table as once. -/
theorem C40_twice (g : Gels F) (hg : KeepsSizes g) (nitermax : Int) (tolpos : F) (dims : Fin 2 → Nat) (per : Fin 2 → Int)
    (coords : Fin 2 → Nat → F) (cs : List (NodeCall F)) (o o1 : NodeInterp F)
    (hrun : runNode g ((new nitermax tolpos).setSrcGrid dims per coords) cs = .ok o) (h1 : o.computeWeights g = .ok o1) :
    ∃ o2, o1.computeWeights g = .ok o2 ∧ o2.weights = o1.weights := by
  obtain ⟨hr, hq, hc, hss⟩ := runNode_same g hg cs _ o (ready_setGrid _ _ _ _) hrun
  obtain ⟨g1, g2, h1⟩ := computeWeights_inv g o o1 h1
  obtain ⟨s, hs, h1⟩ := bind_ok_inv h1
  simp only [pure, Except.pure, Except.ok.injEq] at h1
  have hf : Ready s.finder ∧ SameGrid o.finder s.finder := by
    have hs' := hs
    unfold NodeInterp.before forN at hs'
    exact forFrom_finder g hg o _ 0 _ s hr hs'
  subst h1
  rw [computeWeights_set g _ (by exact g1) (by exact g2)]
  have hsame := before_same g hg { o with finder := s.finder, weights := s.weights } o rfl rfl hf.1 hr hf.2 o.dstNumPoints
  rw [hs] at hsame
  dsimp only
  cases h2 : NodeInterp.before g { o with finder := s.finder, weights := s.weights } o.dstNumPoints with
  | error e => rw [h2] at hsame; exact hsame.elim
  | ok r =>
    rw [h2] at hsame
    exact ⟨_, rfl, hsame.w⟩

end generic

section exact
set_option linter.unusedSectionVars false
variable {K : Type} [Field K] [LinearOrder K] [IsStrictOrderedRing K] [FloorRing K] [FOps K] [FOpsLaws K]

/-- A table that can be applied to arrays of these sizes. -/
structure GoodTable {α : Type} (t : Table α) (nsrc ndst : Nat) : Prop where
  keys : t.Pairwise fun a b => a.1 < b.1
  dst : ∀ e ∈ t, e.1 < ndst
  src : ∀ e ∈ t, ∀ q ∈ e.2, 0 ≤ q.1 ∧ q.1 < nsrc

/-- **C38** `apply` writes the weighted sum of the source values at each node of the table and changes no other entry. -/
theorem C38_apply (o : NodeInterp K) (src dst : List K) (h : GoodTable o.weights src.length dst.length) :
    ∃ d, o.apply src dst = .ok d ∧ d.length = dst.length ∧
      (∀ k iw, (k, iw) ∈ o.weights → d[k]? = some ((iw.map fun e => e.2 * src.getD e.1.toNat 0).sum)) ∧
      ∀ k, (∀ iw, (k, iw) ∉ o.weights) → d[k]? = dst[k]? := by
  obtain ⟨d, h1, h2, h3, h4⟩ := apply_ok o src dst h.keys h.dst h.src
  refine ⟨d, h1, h2, ?_, ?_⟩
  · intro k iw hk
    rw [h3 (k, iw) hk, entryVal_eq]
  · intro k hk
    exact h4 k fun e he hek => hk e.2 (by rw [← hek]; exact he)

/-- **C38** Linearity: the result for a combination of two fields is the combination of the results, at every node of
the table. -/
theorem C38_linear (o : NodeInterp K) (a b : K) (s t dst : List K) (hst : s.length = t.length)
    (h : GoodTable o.weights s.length dst.length) :
    ∃ ds dt d, o.apply s dst = .ok ds ∧ o.apply t dst = .ok dt ∧
      o.apply (List.zipWith (fun x y => a * x + b * y) s t) dst = .ok d ∧
      ∀ k iw, (k, iw) ∈ o.weights → ∃ x y, ds[k]? = some x ∧ dt[k]? = some y ∧ d[k]? = some (a * x + b * y) := by
  have hz : (List.zipWith (fun x y => a * x + b * y) s t).length = s.length := by simp [hst]
  obtain ⟨ds, h1, _, h2, _⟩ := C38_apply o s dst h
  obtain ⟨dt, h3, _, h4, _⟩ := C38_apply o t dst (by rw [← hst]; exact h)
  obtain ⟨d, h5, _, h6, _⟩ := C38_apply o (List.zipWith (fun x y => a * x + b * y) s t) dst (by rw [hz]; exact h)
  refine ⟨ds, dt, d, h1, h3, h5, ?_⟩
  intro k iw hk
  refine ⟨_, _, h2 k iw hk, h4 k iw hk, ?_⟩
  rw [h6 k iw hk]
  congr 1
  have hv := h.src _ hk
  dsimp only at hv
  have key : ∀ l : List (Int × K), (∀ q ∈ l, 0 ≤ q.1 ∧ q.1 < s.length) →
      (l.map fun e => e.2 * (List.zipWith (fun x y => a * x + b * y) s t).getD e.1.toNat 0).sum =
      a * (l.map fun e => e.2 * s.getD e.1.toNat 0).sum + b * (l.map fun e => e.2 * t.getD e.1.toNat 0).sum := by
    intro l
    induction l with
    | nil => intro _; simp
    | cons q l ih =>
      intro hq
      obtain ⟨p0, p1⟩ := hq q (List.mem_cons_self ..)
      have i1 : q.1.toNat < s.length := by omega
      have i2 : q.1.toNat < t.length := by omega
      have i3 : q.1.toNat < (List.zipWith (fun x y => a * x + b * y) s t).length := by omega
      simp only [List.map_cons, List.sum_cons]
      rw [ih fun e he => hq e (List.mem_cons_of_mem _ he)]
      simp only [List.getD_eq_getElem?_getD, List.getElem?_eq_getElem i1, List.getElem?_eq_getElem i2,
        List.getElem?_eq_getElem i3, Option.getD_some, List.getElem_zipWith]
      ring
  exact key iw hv

/-- Table computed for a source and a destination grid by a new interpolator: it exists (no undefined behaviour), can be
applied to data of the grids' sizes, and every entry holds weights of sum 1 whose weighted mean of the source
coordinates is, in distance, closer to the destination node than the tolerance. -/
theorem C38_table (g : Gels K) (hg : KeepsSizes g) (nitermax : Int) (tolpos : K) (dims : Fin 2 → Nat)
    (hd : ∀ i, 2 ≤ dims i ∧ dims i ≤ 2 ^ 30) (per : Fin 2 → Int) (coords : Fin 2 → Nat → K) (dd : Fin 2 → Nat)
    (dc : Fin 2 → Nat → K) :
    ∃ o, (((new nitermax tolpos).setSrcGrid dims per coords).setDstGrid dd dc).computeWeights g = .ok o ∧
      GoodTable o.weights (dims 0 * dims 1) (dd 0 * dd 1) ∧
      ∀ k iw, (k, iw) ∈ o.weights → (∀ e ∈ iw, 0 ≤ e.2 ∧ e.2 ≤ 1) ∧ (iw.map Prod.snd).sum = 1 ∧
        FOps.sqrt (∑ i, ((iw.map fun e => e.2 * coords i e.1.toNat).sum - dc i k) ^ 2) < tolpos := by
  set o0 := (((new nitermax tolpos).setSrcGrid dims per coords).setDstGrid dd dc) with ho0
  have hset := set2_of nitermax tolpos dims hd per coords dd dc
  obtain ⟨s, hs, hl⟩ := before_good g hg o0 dims hset o0.dstNumPoints (le_refl _)
  have hgd : GoodDims dims := fun i => ⟨(hd i).1, (hd i).2.trans (by norm_num)⟩
  have hfd : o0.finder.dims = dims := rfl
  refine ⟨{ o0 with finder := s.finder, weights := s.weights }, ?_, ⟨hl.sorted, hl.keys, ?_⟩, ?_⟩
  · rw [computeWeights_set g o0 rfl rfl, hs]; rfl
  · intro e he q hq
    obtain ⟨d, t, hin, _, hiw, _⟩ := hl.entries e he
    obtain ⟨iw, h1, h2, _⟩ := C29_indices_valid o0.finder.dims hgd d hin
    rw [hiw, Except.ok.injEq] at h1
    have := h2 q (h1 ▸ hq)
    rw [hfd, Fin.prod_univ_two] at this
    exact this
  · intro k iw hk
    obtain ⟨d, t, hin, ht, hiw, err, herr, hlt⟩ := hl.entries (k, iw) hk
    dsimp only at hiw ht
    obtain ⟨iw', h1, _, h2, h3⟩ := C28_partition_of_unity o0.finder.dims hgd d hin
    rw [hiw, Except.ok.injEq] at h1
    subst h1
    refine ⟨h2, h3, ?_⟩
    have hkd : k < dd 0 * dd 1 := hl.keys _ hk
    have ht' := target_eq ((new nitermax tolpos).setSrcGrid dims per coords) dd dc k hkd
    rw [← ho0, ht, Except.ok.injEq] at ht'
    subst ht'
    have hlen : ∀ i, (o0.finder.coords i).length = ∏ k, o0.finder.dims k := hset.grid.coords
    have hpos : ∀ i, interp o0.finder.dims d (o0.finder.coords i) = .ok (entryVal (o0.finder.coords i) iw) := fun i =>
      (interp_entryVal o0.finder.dims hgd d hin _ (hlen i) iw hiw).1
    have hval : ∀ i, entryVal (o0.finder.coords i) iw = (iw.map fun e => e.2 * coords i e.1.toNat).sum := by
      intro i
      rw [entryVal_eq]
      congr 1
      refine List.map_congr_left fun e he => ?_
      obtain ⟨p0, p1⟩ := (interp_entryVal o0.finder.dims hgd d hin _ (hlen i) iw hiw).2 e he
      have hp : e.1.toNat < ∏ k, dims k := by rw [hlen i] at p1; have : o0.finder.dims = dims := rfl; rw [this] at p1; omega
      congr 1
      show ((List.range (∏ k, dims k)).map (coords i)).getD e.1.toNat 0 = _
      rw [List.getD_eq_getElem?_getD, List.getElem?_map, List.getElem?_range hp]
      rfl
    unfold Finder.getError Finder.getPosition at herr
    dsimp only at herr
    rw [forAxes_ok _ _ hpos] at herr
    simp only [bind, Except.bind, pure, Except.pure, Except.ok.injEq] at herr
    have e2 : List.finRange 2 = [0, 1] := rfl
    rw [e2] at herr
    simp only [List.foldl_cons, List.foldl_nil, hval, zero_add] at herr
    rw [Fin.sum_univ_two, pow_two, pow_two, herr]
    exact hlt

/-- **C38** Constants: with the table of any two grids, a constant source field is reproduced at every interpolated
node. -/
theorem C38_constant (g : Gels K) (hg : KeepsSizes g) (nitermax : Int) (tolpos : K) (dims : Fin 2 → Nat)
    (hd : ∀ i, 2 ≤ dims i ∧ dims i ≤ 2 ^ 30) (per : Fin 2 → Int) (coords : Fin 2 → Nat → K) (dd : Fin 2 → Nat)
    (dc : Fin 2 → Nat → K) (c : K) (dst : List K) (hdst : dst.length = dd 0 * dd 1) :
    ∃ o d, (((new nitermax tolpos).setSrcGrid dims per coords).setDstGrid dd dc).computeWeights g = .ok o ∧
      o.apply (List.replicate (dims 0 * dims 1) c) dst = .ok d ∧
      ∀ k iw, (k, iw) ∈ o.weights → d[k]? = some c := by
  obtain ⟨o, ho, ht, hsum⟩ := C38_table g hg nitermax tolpos dims hd per coords dd dc
  obtain ⟨d, h1, _, h2, _⟩ := C38_apply o (List.replicate (dims 0 * dims 1) c) dst (by
    rw [List.length_replicate, hdst]; exact ht)
  refine ⟨o, d, ho, h1, ?_⟩
  intro k iw hk
  rw [h2 k iw hk]
  congr 1
  have : (iw.map fun e => e.2 * (List.replicate (dims 0 * dims 1) c).getD e.1.toNat 0) = iw.map fun e => e.2 * c := by
    refine List.map_congr_left fun e he => ?_
    obtain ⟨p0, p1⟩ := ht.src _ hk e he
    rw [List.getD_eq_getElem?_getD, List.getElem?_replicate, if_pos (by omega)]
    rfl
  rw [this, List.sum_map_mul_right]
  have h3 : (iw.map fun e => e.2).sum = 1 := (hsum k iw hk).2.1
  rw [h3, one_mul]

/-- The table for an affine source grid: a destination node at the index position `t` of the grid has an entry, which holds the
weights of `t`. -/
theorem affine_entry (g : Gels K) (hg : GelsContract g) (nitermax : Int) (hnit : 2 ≤ nitermax) (tolpos : K)
    (htol : 0 < tolpos) (dims : Fin 2 → Nat) (hd : ∀ i, 2 ≤ dims i ∧ dims i ≤ 2 ^ 30) (per : Fin 2 → Int)
    (coords : Fin 2 → Nat → K) (c : Fin 2 → K) (A : Matrix (Fin 2) (Fin 2) K) (hA : A.det ≠ 0)
    (hgrid : AffineGrid dims c A coords) (dd : Fin 2 → Nat) (dc : Fin 2 → Nat → K) :
    ∃ o, (((new nitermax tolpos).setSrcGrid dims per coords).setDstGrid dd dc).computeWeights g = .ok o ∧
      GoodTable o.weights (dims 0 * dims 1) (dd 0 * dd 1) ∧
      ∀ k < dd 0 * dd 1, ∀ t : Fin 2 → K, InGrid dims t → (∀ i, dc i k = c i + ∑ j, A i j * t j) →
        ∃ iw, (k, iw) ∈ o.weights ∧ getSrcIndicesAndWeights dims t = .ok iw := by
  have hks : KeepsSizes g := hg.sizes
  obtain ⟨o, ho, ht, hsum⟩ := C38_table g hks nitermax tolpos dims hd per coords dd dc
  refine ⟨o, ho, ht, ?_⟩
  intro k hk t ht' htk
  set o0 := (((new nitermax tolpos).setSrcGrid dims per coords).setDstGrid dd dc) with ho0
  have hset := set2_of nitermax tolpos dims hd per coords dd dc
  have hgd : GoodDims dims := fun i => ⟨(hd i).1, (hd i).2.trans (by norm_num)⟩
  obtain ⟨sN, hsN, hlN⟩ := before_good g hks o0 dims hset o0.dstNumPoints (le_refl _)
  obtain ⟨s, hs, hl⟩ := before_good g hks o0 dims hset k (le_of_lt hk)
  have hoN : o.weights = sN.weights := by
    rw [computeWeights_set g o0 rfl rfl, hsN] at ho
    simp only [bind, Except.bind, pure, Except.pure, Except.ok.injEq] at ho
    rw [← ho]
  -- the first try succeeds
  have htgt := target_eq ((new nitermax tolpos).setSrcGrid dims per coords) dd dc k hk
  rw [← ho0] at htgt
  have hdc : (fun j => dc j k) = fun i => c i + ∑ j, A i j * t j := funext htk
  have key : ∀ s : LoopState K, LoopOK g o0 k s → ∃ f, findTarget g s.finder (fun j => dc j k) s.dIndices = .ok (0, f) ∧
      f.dIndices = t := by
    intro s hl
    obtain ⟨code, s', e1, e2, _, e3, _⟩ := C35_affine_exact g hg (by norm_num) nitermax tolpos dims hgd per coords c A hA
      hgrid s.dIndices t hl.pos ht'
    have hc := e3 hnit htol
    subst hc
    have hs0 := findTarget_same g hks o0.finder s.finder hset.grid.ready hl.ready hl.same (fun j => dc j k) s.dIndices
    have hb : findTarget g o0.finder (fun j => dc j k) s.dIndices = .ok (0, s') := by
      unfold findTarget
      obtain ⟨m, hm⟩ : ∃ m, o0.finder.fuelOf = m + 1 := ⟨o0.finder.fuelOf - 1, by have := fuelOf_pos o0.finder; omega⟩
      rw [hm]
      unfold searchLoop
      have e1' : (o0.finder.reset s.dIndices (fun j => dc j k)).next g = .ok (1, s') := by rw [hdc]; exact e1
      rw [e1']
      rfl
    rw [hb] at hs0
    cases hx : findTarget g s.finder (fun j => dc j k) s.dIndices with
    | error e => rw [hx] at hs0; exact hs0.elim
    | ok r =>
      rw [hx] at hs0
      obtain ⟨c1, f⟩ := r
      obtain ⟨p, q⟩ := hs0
      dsimp only at p q
      exact ⟨f, by rw [p], q.trans e2⟩
  obtain ⟨f, hf, hft⟩ := key s hl
  obtain ⟨iw, hmem⟩ := (hlN.first k hk).2 ⟨s, _, f, hs, htgt, hf⟩
  -- the entry of node k holds the weights of t
  have hent : getSrcIndicesAndWeights dims t = .ok iw := by
    have gen : ∀ m, k + 1 ≤ m → m ≤ o0.dstNumPoints → ∀ sm, o0.before g m = .ok sm → ∀ iw, (k, iw) ∈ sm.weights →
        getSrcIndicesAndWeights dims t = .ok iw := by
      intro m
      induction m with
      | zero => intro h; omega
      | succ m ih =>
        intro hkm hmN sm hsm iw hiw
        obtain ⟨sp, hsp, hlp⟩ := before_good g hks o0 dims hset m (by omega)
        rw [before_succ g o0 m sp hsp] at hsm
        by_cases hkm' : k = m
        · subst hkm'
          rw [hs, Except.ok.injEq] at hsp
          subst hsp
          unfold NodeInterp.node at hsm
          rw [htgt] at hsm
          simp only [bind, Except.bind] at hsm
          rw [hf] at hsm
          dsimp only at hsm
          rw [if_pos rfl, hft] at hsm
          have hfd : f.dims = dims := (findTarget_frame g hks _ _ _ _ _ hl.ready hf).2.1.dims.trans hl.same.dims
          rw [hfd] at hsm
          cases hx : getSrcIndicesAndWeights dims t with
          | error e => rw [hx] at hsm; cases hsm
          | ok iw1 =>
            rw [hx] at hsm
            simp only [pure, Except.pure, Except.ok.injEq] at hsm
            subst hsm
            dsimp only at hiw
            rw [insert_last _ _ _ hl.keys, List.mem_append, List.mem_singleton] at hiw
            rcases hiw with hiw | hiw
            · exact absurd (hl.keys _ hiw) (Nat.lt_irrefl _)
            · rw [Prod.mk.injEq] at hiw; rw [hiw.2]
        · refine ih (by omega) (by omega) sp hsp iw ?_
          unfold NodeInterp.node at hsm
          obtain ⟨_, _, hsm⟩ := bind_ok_inv hsm
          obtain ⟨⟨c1, f1⟩, _, hsm⟩ := bind_ok_inv hsm
          dsimp only at hsm
          split_ifs at hsm
          · obtain ⟨iw1, _, hsm⟩ := bind_ok_inv hsm
            simp only [pure, Except.pure, Except.ok.injEq] at hsm
            subst hsm
            dsimp only at hiw
            rw [insert_last _ _ _ hlp.keys, List.mem_append, List.mem_singleton] at hiw
            rcases hiw with hiw | hiw
            · exact hiw
            · rw [Prod.mk.injEq] at hiw; exact absurd hiw.1 hkm'
          · simp only [pure, Except.pure, Except.ok.injEq] at hsm
            subst hsm; exact hiw
          · obtain ⟨_, _, hsm⟩ := bind_ok_inv hsm
            obtain ⟨⟨_, _, _⟩, _, hsm⟩ := bind_ok_inv hsm
            dsimp only at hsm
            split_ifs at hsm
            · obtain ⟨_, _, hsm⟩ := bind_ok_inv hsm
              obtain ⟨_, _, hsm⟩ := bind_ok_inv hsm
              simp only [pure, Except.pure, Except.ok.injEq] at hsm
              subst hsm; exact hiw
            · simp only [pure, Except.pure, Except.ok.injEq] at hsm
              subst hsm; exact hiw
    exact gen o0.dstNumPoints hk (le_refl _) sN hsN iw hmem
  exact ⟨iw, hoN ▸ hmem, hent⟩

/-- **C39** Source grid that is an invertible affine image of its indices, more than one iteration allowed and a positive
tolerance: every destination node lying in the source grid gets weights, and `apply` gives it the exact value of
any affine field `b0 + b · x` of the physical coordinates.  (Destination nodes outside are allowed.) -/
theorem C39_affine_exact (g : Gels K) (hg : GelsContract g) (nitermax : Int) (hnit : 2 ≤ nitermax) (tolpos : K)
    (htol : 0 < tolpos) (dims : Fin 2 → Nat) (hd : ∀ i, 2 ≤ dims i ∧ dims i ≤ 2 ^ 30) (per : Fin 2 → Int)
    (coords : Fin 2 → Nat → K) (c : Fin 2 → K) (A : Matrix (Fin 2) (Fin 2) K) (hA : A.det ≠ 0)
    (hgrid : AffineGrid dims c A coords) (dd : Fin 2 → Nat) (dc : Fin 2 → Nat → K)
    (b0 : K) (b : Fin 2 → K) (src dst : List K) (hsrc : src.length = dims 0 * dims 1)
    (hfield : ∀ m < dims 0 * dims 1, src[m]? = some (b0 + ∑ i, b i * coords i m)) (hdst : dst.length = dd 0 * dd 1) :
    ∃ o d, (((new nitermax tolpos).setSrcGrid dims per coords).setDstGrid dd dc).computeWeights g = .ok o ∧
      o.apply src dst = .ok d ∧
      ∀ k < dd 0 * dd 1, ∀ t : Fin 2 → K, InGrid dims t → (∀ i, dc i k = c i + ∑ j, A i j * t j) →
        d[k]? = some (b0 + ∑ i, b i * dc i k) := by
  have hgd : GoodDims dims := fun i => ⟨(hd i).1, (hd i).2.trans (by norm_num)⟩
  obtain ⟨o, ho, ht, hent⟩ := affine_entry g hg nitermax hnit tolpos htol dims hd per coords c A hA hgrid dd dc
  obtain ⟨d, h1, _, h2, _⟩ := C38_apply o src dst (by rw [hsrc, hdst]; exact ht)
  refine ⟨o, d, ho, h1, ?_⟩
  intro k hk t ht' htk
  obtain ⟨iw, hmem, hent⟩ := hent k hk t ht' htk
  rw [h2 k iw (hmem), ← entryVal_eq]
  have hp2 : ∏ i, dims i = dims 0 * dims 1 := Fin.prod_univ_two _
  have hi := (interp_entryVal dims hgd t ht' src (by rw [hp2, hsrc]) iw hent).1
  have ha := interp_affine dims hgd t ht' (b0 + ∑ i, b i * c i) (fun j => ∑ i, b i * A i j) src (by rw [hp2, hsrc]) (by
    intro m hm
    have hlt := rowMajor_lt dims m hm
    rw [hp2] at hlt
    rw [hfield _ hlt]
    congr 1
    simp only [hgrid m hm, Fin.sum_univ_two]
    ring)
  rw [hi, Except.ok.injEq] at ha
  rw [ha]
  congr 1
  simp only [htk, Fin.sum_univ_two]
  ring

/-- Value at node `(i, j)` of a field given as an array, rows first. -/
def nodeValue (dims : Fin 2 → Nat) (src : List K) (i j : Nat) : K := src.getD (i * dims 1 + j) 0

/-- Interpolation of a field at a position in the cell `(i, j)`, at the fractions `u`, `v` of the cell. -/
theorem interp_cell (dims : Fin 2 → Nat) (hgd : GoodDims dims) (src : List K) (hsrc : src.length = dims 0 * dims 1)
    (i j : Nat) (u v : K) (hi : i + 1 < dims 0) (hj : j + 1 < dims 1) (hu : 0 ≤ u ∧ u ≤ 1) (hv : 0 ≤ v ∧ v ≤ 1) :
    InGrid dims ![(i : K) + u, (j : K) + v] ∧
    interp dims ![(i : K) + u, (j : K) + v] src = .ok ((1 - u) * (1 - v) * nodeValue dims src i j
      + (1 - u) * v * nodeValue dims src i (j + 1) + u * (1 - v) * nodeValue dims src (i + 1) j
      + u * v * nodeValue dims src (i + 1) (j + 1)) := by
  have hin : InGrid dims ![(i : K) + u, (j : K) + v] := by
    intro a
    have e0 : ((i + 2 : Nat) : K) ≤ (dims 0 : K) := by exact_mod_cast (by omega : i + 2 ≤ dims 0)
    have e1 : ((j + 2 : Nat) : K) ≤ (dims 1 : K) := by exact_mod_cast (by omega : j + 2 ≤ dims 1)
    push_cast at e0 e1
    fin_cases a
    · refine ⟨by have : (0 : K) ≤ i := Nat.cast_nonneg i
                 show (0 : K) ≤ i + u
                 linarith, ?_⟩
      show (i : K) + u ≤ (dims 0 : K) - 1
      linarith
    · refine ⟨by have : (0 : K) ≤ j := Nat.cast_nonneg j
                 show (0 : K) ≤ j + v
                 linarith, ?_⟩
      show (j : K) + v ≤ (dims 1 : K) - 1
      linarith
  refine ⟨hin, ?_⟩
  have hp2 : ∏ i, dims i = dims 0 * dims 1 := Fin.prod_univ_two _
  rw [interp_ok dims hgd _ hin src (by rw [hp2, hsrc])]
  have lo : ∀ (a : Fin 2) (m : Nat) (w : K), m + 1 < dims a → 0 ≤ w → w ≤ 1 → ![(i : K) + u, (j : K) + v] a = (m : K) + w →
      cellLo dims ![(i : K) + u, (j : K) + v] a = m ∨ (cellLo dims ![(i : K) + u, (j : K) + v] a = m + 1 ∧ w = 1) ∨
      (cellLo dims ![(i : K) + u, (j : K) + v] a + 1 = m ∧ w = 0) := by
    intro a m w hm w0 w1 he
    obtain ⟨b1, b2, b3⟩ := cellLo_bounds dims hgd _ hin a
    rw [he] at b1 b2
    have c1 : cellLo dims ![(i : K) + u, (j : K) + v] a ≤ m + 1 := by
      have : ((cellLo dims ![(i : K) + u, (j : K) + v] a : Nat) : K) ≤ ((m + 1 : Nat) : K) := by push_cast; linarith
      exact_mod_cast this
    have c2 : m ≤ cellLo dims ![(i : K) + u, (j : K) + v] a + 1 := by
      have : (m : K) ≤ ((cellLo dims ![(i : K) + u, (j : K) + v] a + 1 : Nat) : K) := by push_cast; linarith
      exact_mod_cast this
    rcases Nat.lt_trichotomy (cellLo dims ![(i : K) + u, (j : K) + v] a) m with h | h | h
    · right; right
      have e : cellLo dims ![(i : K) + u, (j : K) + v] a + 1 = m := by omega
      refine ⟨e, ?_⟩
      have : ((cellLo dims ![(i : K) + u, (j : K) + v] a + 1 : Nat) : K) = (m : K) := by rw [e]
      push_cast at this
      linarith
    · exact Or.inl h
    · right; left
      have e : cellLo dims ![(i : K) + u, (j : K) + v] a = m + 1 := by omega
      refine ⟨e, ?_⟩
      have : ((cellLo dims ![(i : K) + u, (j : K) + v] a : Nat) : K) = ((m + 1 : Nat) : K) := by rw [e]
      push_cast at this
      linarith
  have l0 := lo 0 i u hi hu.1 hu.2 rfl
  have l1 := lo 1 j v hj hv.1 hv.2 rfl
  have hrm : ∀ m : Fin 2 → Nat, rowMajor dims m = m 0 * dims 1 + m 1 := by
    intro m
    rw [rowMajor_succ, rowMajor_succ]
    simp [rowMajor]
  have hpow : 2 ^ 2 = 4 := rfl
  rw [hpow]
  simp only [Finset.sum_range_succ, Finset.sum_range_zero, Fin.prod_univ_two, hrm, cornerNode, zero_add]
  have bits : bit 2 0 0 = 0 ∧ bit 2 0 1 = 0 ∧ bit 2 1 0 = 0 ∧ bit 2 1 1 = 1 ∧ bit 2 2 0 = 1 ∧ bit 2 2 1 = 0 ∧
      bit 2 3 0 = 1 ∧ bit 2 3 1 = 1 := by decide
  obtain ⟨p1, p2, p3, p4, p5, p6, p7, p8⟩ := bits
  rw [p1, p2, p3, p4, p5, p6, p7, p8]
  simp only [sideWeight, if_true, one_ne_zero, if_false, Matrix.cons_val_zero, Matrix.cons_val_one]
  unfold nodeValue
  congr 1
  generalize cellLo dims ![(i : K) + u, (j : K) + v] 0 = a at l0 ⊢
  generalize cellLo dims ![(i : K) + u, (j : K) + v] 1 = b at l1 ⊢
  rcases l0 with rfl | ⟨rfl, rfl⟩ | ⟨rfl, rfl⟩ <;> rcases l1 with rfl | ⟨rfl, rfl⟩ | ⟨rfl, rfl⟩ <;>
    push_cast <;> simp only [add_zero] <;> ring_nf

/-- **C88** Source grid that is an invertible affine image of its indices, more than one iteration allowed and a positive
tolerance: a destination node in the source cell `(i, j)`, at the fractions `u` and `v` of its sides, gets the bilinear
interpolant of the values at the four corners of this cell, for any data. -/
theorem C88_bilinear (g : Gels K) (hg : GelsContract g) (nitermax : Int) (hnit : 2 ≤ nitermax) (tolpos : K)
    (htol : 0 < tolpos) (dims : Fin 2 → Nat) (hd : ∀ i, 2 ≤ dims i ∧ dims i ≤ 2 ^ 30) (per : Fin 2 → Int)
    (coords : Fin 2 → Nat → K) (c : Fin 2 → K) (A : Matrix (Fin 2) (Fin 2) K) (hA : A.det ≠ 0)
    (hgrid : AffineGrid dims c A coords) (dd : Fin 2 → Nat) (dc : Fin 2 → Nat → K)
    (src dst : List K) (hsrc : src.length = dims 0 * dims 1) (hdst : dst.length = dd 0 * dd 1) :
    ∃ o d, (((new nitermax tolpos).setSrcGrid dims per coords).setDstGrid dd dc).computeWeights g = .ok o ∧
      o.apply src dst = .ok d ∧
      ∀ k < dd 0 * dd 1, ∀ (i j : Nat) (u v : K), i + 1 < dims 0 → j + 1 < dims 1 → 0 ≤ u ∧ u ≤ 1 → 0 ≤ v ∧ v ≤ 1 →
        (∀ a, dc a k = c a + (A a 0 * (i + u) + A a 1 * (j + v))) →
        d[k]? = some ((1 - u) * (1 - v) * nodeValue dims src i j + (1 - u) * v * nodeValue dims src i (j + 1)
          + u * (1 - v) * nodeValue dims src (i + 1) j + u * v * nodeValue dims src (i + 1) (j + 1)) := by
  have hgd : GoodDims dims := fun i => ⟨(hd i).1, (hd i).2.trans (by norm_num)⟩
  obtain ⟨o, ho, ht, hent⟩ := affine_entry g hg nitermax hnit tolpos htol dims hd per coords c A hA hgrid dd dc
  obtain ⟨d, h1, _, h2, _⟩ := C38_apply o src dst (by rw [hsrc, hdst]; exact ht)
  refine ⟨o, d, ho, h1, ?_⟩
  intro k hk i j u v hi hj hu hv hdc
  obtain ⟨hin, hval⟩ := interp_cell dims hgd src hsrc i j u v hi hj hu hv
  obtain ⟨iw, hmem, hent⟩ := hent k hk _ hin (fun a => by rw [hdc, Fin.sum_univ_two]; rfl)
  rw [h2 k iw hmem, ← entryVal_eq]
  have hp2 : ∏ i, dims i = dims 0 * dims 1 := Fin.prod_univ_two _
  have hi := (interp_entryVal dims hgd _ hin src (by rw [hp2, hsrc]) iw hent).1
  rw [hval, Except.ok.injEq] at hi
  rw [hi]

/-- **C88** Destination nodes that are nodes of an affine source grid get the value there.  So interpolating from a grid to
itself, or to some of its nodes in any order, copies the data. -/
theorem C88_same_nodes (g : Gels K) (hg : GelsContract g) (nitermax : Int) (hnit : 2 ≤ nitermax) (tolpos : K)
    (htol : 0 < tolpos) (dims : Fin 2 → Nat) (hd : ∀ i, 2 ≤ dims i ∧ dims i ≤ 2 ^ 30) (per : Fin 2 → Int)
    (coords : Fin 2 → Nat → K) (c : Fin 2 → K) (A : Matrix (Fin 2) (Fin 2) K) (hA : A.det ≠ 0)
    (hgrid : AffineGrid dims c A coords) (dd : Fin 2 → Nat) (dc : Fin 2 → Nat → K)
    (src dst : List K) (hsrc : src.length = dims 0 * dims 1) (hdst : dst.length = dd 0 * dd 1) :
    ∃ o d, (((new nitermax tolpos).setSrcGrid dims per coords).setDstGrid dd dc).computeWeights g = .ok o ∧
      o.apply src dst = .ok d ∧
      (∀ k < dd 0 * dd 1, ∀ m < dims 0 * dims 1, (∀ a, dc a k = coords a m) → d[k]? = src[m]?) ∧
      (dd = dims → (∀ a, ∀ m < dims 0 * dims 1, dc a m = coords a m) → d = src) := by
  obtain ⟨o, d, ho, h1, h2⟩ := C88_bilinear g hg nitermax hnit tolpos htol dims hd per coords c A hA hgrid dd dc src dst hsrc hdst
  have hlen : d.length = dd 0 * dd 1 := by
    obtain ⟨o', ho', ht, _⟩ := C38_table g hg.sizes nitermax tolpos dims hd per coords dd dc
    rw [ho, Except.ok.injEq] at ho'
    subst ho'
    obtain ⟨d', h3, h4, _⟩ := C38_apply o src dst (by rw [hsrc, hdst]; exact ht)
    rw [h1, Except.ok.injEq] at h3
    subst h3
    rw [h4, hdst]
  have key : ∀ k < dd 0 * dd 1, ∀ m < dims 0 * dims 1, (∀ a, dc a k = coords a m) → d[k]? = src[m]? := by
    intro k hk m hm hkm
    have hd0 := (hd 0).1
    have hd1 := (hd 1).1
    obtain ⟨i, hie⟩ : ∃ i, i = m / dims 1 := ⟨_, rfl⟩
    obtain ⟨j, hje⟩ : ∃ j, j = m % dims 1 := ⟨_, rfl⟩
    have hi : i < dims 0 := by rw [hie]; exact Nat.div_lt_of_lt_mul (by rw [Nat.mul_comm]; exact hm)
    have hj : j < dims 1 := by rw [hje]; exact Nat.mod_lt _ (by omega)
    have hmij : i * dims 1 + j = m := by rw [hie, hje, Nat.mul_comm]; exact Nat.div_add_mod _ _
    have hrm : rowMajor dims ![i, j] = m := by
      rw [rowMajor_succ, rowMajor_succ]
      simp [rowMajor, hmij]
    have hco : ∀ a, coords a m = c a + (A a 0 * i + A a 1 * j) := by
      intro a
      have := hgrid ![i, j] (by intro b; fin_cases b <;> assumption) a
      rw [hrm, Fin.sum_univ_two] at this
      exact this
    have hval : src[m]? = some (nodeValue dims src i j) := by
      unfold nodeValue
      rw [hmij, List.getD_eq_getElem?_getD, List.getElem?_eq_getElem (by omega)]
      rfl
    -- the cell with the node as a corner
    have hlast : ∀ (n x : Nat), 2 ≤ n → x < n → ∃ y, ∃ w : K, y + 1 < n ∧ (0 ≤ w ∧ w ≤ 1) ∧ (y : K) + w = x ∧
        ((w = 0 ∧ y = x) ∨ (w = 1 ∧ y + 1 = x)) := by
      intro n x hn hx
      by_cases h : x + 1 < n
      · exact ⟨x, 0, h, ⟨le_refl _, zero_le_one⟩, by simp, Or.inl ⟨rfl, rfl⟩⟩
      · refine ⟨x - 1, 1, by omega, ⟨zero_le_one, le_refl _⟩, ?_, Or.inr ⟨rfl, by omega⟩⟩
        have : ((x - 1 + 1 : Nat) : K) = x := by rw [Nat.sub_add_cancel (by omega)]
        rw [← this]; push_cast; ring
    obtain ⟨i', u, p1, p2, p3, p4⟩ := hlast (dims 0) i hd0 hi
    obtain ⟨j', v, q1, q2, q3, q4⟩ := hlast (dims 1) j hd1 hj
    rw [h2 k hk i' j' u v p1 q1 p2 q2 (fun a => by rw [hkm, hco, p3, q3]), hval]
    congr 1
    rcases p4 with ⟨rfl, rfl⟩ | ⟨rfl, rfl⟩ <;> rcases q4 with ⟨rfl, rfl⟩ | ⟨rfl, rfl⟩ <;> ring
  refine ⟨o, d, ho, h1, key, ?_⟩
  rintro rfl hall
  refine List.ext_getElem? fun k => ?_
  by_cases hk : k < dd 0 * dd 1
  · exact key k hk k hk fun a => hall a k hk
  · rw [List.getElem?_eq_none (by omega), List.getElem?_eq_none (by omega)]

/-- **C41, part.**  Missing: nodes found only after a restart from a side, for which the claim is false
(`C41_found_refuted`).  Proved, for any two grids: a destination node has an entry in the table exactly if the search
from the position at hand, the first made for this node, succeeds. -/
theorem C41_found_partial (g : Gels K) (hg : KeepsSizes g) (nitermax : Int) (tolpos : K) (dims : Fin 2 → Nat)
    (hd : ∀ i, 2 ≤ dims i ∧ dims i ≤ 2 ^ 30) (per : Fin 2 → Int) (coords : Fin 2 → Nat → K) (dd : Fin 2 → Nat)
    (dc : Fin 2 → Nat → K) :
    ∃ o, (((new nitermax tolpos).setSrcGrid dims per coords).setDstGrid dd dc).computeWeights g = .ok o ∧
      ∀ k < dd 0 * dd 1, ∃ s code f, (((new nitermax tolpos).setSrcGrid dims per coords).setDstGrid dd dc).before g k = .ok s ∧
        findTarget g s.finder (fun j => dc j k) s.dIndices = .ok (code, f) ∧
        ((∃ iw, (k, iw) ∈ o.weights) ↔ code = 0) := by
  set o0 := (((new nitermax tolpos).setSrcGrid dims per coords).setDstGrid dd dc) with ho0
  have hset := set2_of nitermax tolpos dims hd per coords dd dc
  obtain ⟨sN, hsN, hlN⟩ := before_good g hg o0 dims hset o0.dstNumPoints (le_refl _)
  refine ⟨{ o0 with finder := sN.finder, weights := sN.weights }, by rw [computeWeights_set g o0 rfl rfl, hsN]; rfl, ?_⟩
  intro k hk
  obtain ⟨s, hs, hl⟩ := before_good g hg o0 dims hset k (le_of_lt hk)
  have htgt := target_eq ((new nitermax tolpos).setSrcGrid dims per coords) dd dc k hk
  obtain ⟨code, f, hf, _⟩ := findTarget_good g hg s.finder (gridOK_same hset.grid hl.same hl.ready) (fun j => dc j k) s.dIndices
    (by rw [hl.same.dims]; exact hl.pos)
  refine ⟨s, code, f, hs, hf, ?_⟩
  rw [show (∃ iw, (k, iw) ∈ sN.weights) ↔ _ from hlN.first k hk]
  constructor
  · rintro ⟨s2, t2, f2, hs2, ht2, hf2⟩
    rw [hs, Except.ok.injEq] at hs2; subst hs2
    rw [← ho0, ht2, Except.ok.injEq] at htgt; subst htgt
    rw [hf, Except.ok.injEq, Prod.mk.injEq] at hf2
    exact hf2.1
  · rintro rfl
    exact ⟨s, _, f, hs, htgt, hf⟩

end exact

/-- A library solving systems of two equations by Cramer's rule (`TRANS = 'T'`: equation `j` is `a[2j] x_0 + a[2j+1] x_1 = b_j`). -/
def gels2 : Gels ℚ := fun r =>
  let m := fun k => r.a.getD k 0
  let det := m 0 * m 3 - m 2 * m 1
  { a := r.a
    b := if r.b.length = 2 then 
      [(r.b.getD 0 0 * m 3 - m 1 * r.b.getD 1 0) / det, (m 0 * r.b.getD 1 0 - r.b.getD 0 0 * m 2) / det] else r.b
    info := 0 }

/-- Product grid with `x` nodes 0, 1, 3 and `y` nodes 0, 1, 2. -/
def stretched : Fin 2 → Nat → ℚ := fun i k => if i = 0 then ([0, 1, 3].getD (k / 3) 0) else ((k % 3 : Nat) : ℚ)

/-- **C41 is false.**  Source grid `stretched`, one destination node at (5/2, 1), two iterations allowed.  The restart from
the side position (2, 0) succeeds, yet the table stays empty. -/
theorem C41_found_refuted :
    (do let r ← (((new 2 (1 / 1000) : NodeInterp ℚ).setSrcGrid ![3, 3] ![0, 0] stretched).setDstGrid ![1, 1]
            (fun i _ => ![5 / 2, 1] i)).computeWeights gels2
        return r.weights) = .ok [] ∧
    (do let r ← searchFrom gels2 ((Finder.new 2 (1 / 1000) : Finder ℚ 2).setGrid ![3, 3] ![0, 0] stretched) ![2, 0] ![5 / 2, 1] 2
        return (r.1, r.2.1 0, r.2.1 1)) = .ok (1, 7 / 4, 1) ∧
    (do let r ← retry gels2 ![2, 2] ![5 / 2, 1] 9 ⟨0, 9, [3, 1]⟩
          ((Finder.new 2 (1 / 1000) : Finder ℚ 2).setGrid ![3, 3] ![0, 0] stretched) ![0, 0]
        return (r.1, r.2.1.dIndices 0, r.2.1.dIndices 1)) = .ok (0, 7 / 4, 1) := by
  refine ⟨?_, ?_, ?_⟩ <;> decide +kernel

/-! ### Examples -/

/-- The libraries keep the sizes (hypothesis of C38, C40, C41); `refGels` meets the full contract (C39). -/
example : KeepsSizes gels2 := by
  intro r
  refine ⟨rfl, ?_⟩
  unfold gels2
  dsimp only
  split_ifs with h
  · exact h.symm
  · rfl
example : GelsContract (refGels : Gels ℚ) := refGels_contract

/-- `gels2` solves systems of two equations. -/
example (r : GelsArgs ℚ) (p q s t u v : ℚ) (ha : r.a = [p, q, s, t]) (hb : r.b = [u, v]) (h : p * t - q * s ≠ 0) :
    ∃ x y, (gels2 r).b = [x, y] ∧ p * x + q * y = u ∧ s * x + t * y = v := by
  refine ⟨(u * t - q * v) / (p * t - s * q), (p * v - u * s) / (p * t - s * q), by simp [gels2, ha, hb], ?_, ?_⟩
  all_goals
    have h' : p * t - s * q ≠ 0 := by rwa [mul_comm s q]
    rw [mul_div_assoc', mul_div_assoc', ← add_div, div_eq_iff h']
    ring

/-- A sheared 3 x 3 grid: `x = i + j`, `y = 2 j`. -/
def sheared : Fin 2 → Nat → ℚ := fun i k => ![((k / 3 : Nat) : ℚ) + ((k % 3 : Nat) : ℚ), 2 * ((k % 3 : Nat) : ℚ)] i

theorem sheared_affine : AffineGrid ![3, 3] ![0, 0] !![1, (1 : ℚ); 0, 2] sheared := by
  intro m hm i
  have h0 := hm 0
  have h1 := hm 1
  simp at h0 h1
  have e : rowMajor ![3, 3] m = m 0 * 3 + m 1 := by
    rw [rowMajor_succ, rowMajor_succ]; simp [rowMajor]
  have d : (m 0 * 3 + m 1) / 3 = m 0 := by omega
  have r : (m 0 * 3 + m 1) % 3 = m 1 := by omega
  rw [e]
  unfold sheared
  rw [d, r]
  fin_cases i <;> simp [Fin.sum_univ_two]

/-- Two destination nodes in the sheared grid and one outside: two entries; the affine field `1 + x - 3 y` is
interpolated exactly and the third entry of the data stays. -/
example : (do
    let o ← (((new 5 (1 / 1000) : NodeInterp ℚ).setSrcGrid ![3, 3] ![0, 0] sheared).setDstGrid ![3, 1]
      (fun i k => ![[3 / 2, 2, 9].getD k 0, [1, 3, 9].getD k 0] i)).computeWeights gels2
    let d ← o.apply ((List.range 9).map fun m => 1 + sheared 0 m - 3 * sheared 1 m) [7, 7, 7]
    return (o.weights.map Prod.fst, d)) = .ok ([0, 1], [1 + 3 / 2 - 3 * 1, 1 + 2 - 3 * 3, 7]) := by decide +kernel

/-- C88: any data; the node (3/2, 1) lies in the cell (0, 0) at the fractions 1 and 1/2, the node (2, 3) in the cell
(0, 1) at the fractions 1/2 and 1/2; and the data is copied to a permutation of the nodes. -/
example : (do
    let o ← (((new 5 (1 / 1000) : NodeInterp ℚ).setSrcGrid ![3, 3] ![0, 0] sheared).setDstGrid ![2, 1]
      (fun i k => ![[3 / 2, 2].getD k 0, [1, 3].getD k 0] i)).computeWeights gels2
    o.apply [1, 10, 100, 2, 20, 200, 3, 30, 300] [7, 7]) =
    .ok [0 * 1 + 0 * 10 + 1 / 2 * 2 + 1 / 2 * 20, 1 / 4 * 10 + 1 / 4 * 100 + 1 / 4 * 20 + 1 / 4 * 200] := by decide +kernel
example : (do
    let o ← (((new 5 (1 / 1000) : NodeInterp ℚ).setSrcGrid ![3, 3] ![0, 0] sheared).setDstGrid ![3, 3]
      (fun i k => sheared i (8 - k))).computeWeights gels2
    o.apply [1, 10, 100, 2, 20, 200, 3, 30, 300] [7, 7, 7, 7, 7, 7, 7, 7, 7]) =
    .ok [300, 30, 3, 200, 20, 2, 100, 10, 1] := by decide +kernel

/-- A table meeting the hypotheses of C38_apply and C38_linear. -/
example : GoodTable ([(0, [(0, 1 / 2), (1, 1 / 2)]), (2, [(3, 1)])] : Table ℚ) 4 3 :=
  ⟨by decide, by decide, by decide⟩

/-- A history for C40: weights computed on another destination grid. -/
example : (do let o ← runNode gels2 ((new 5 (1 / 1000) : NodeInterp ℚ).setSrcGrid ![3, 3] ![0, 0] sheared)
                [.setDst ![1, 1] (fun _ _ => 1), .compute, .setDst ![2, 1] (fun i k => ![[3 / 2, 2].getD k 0, 1] i), .compute]
              return o.weights.map Prod.fst) = .ok [0, 1] := by decide +kernel

end Sg.Props
