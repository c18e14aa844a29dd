import Verif.Spec.Conserve
import Verif.Proof.ConserveGrid
import Verif.Proof.QuadIntersect
import Verif.Proof.Loops
/- The caches of `computeWeights` only hold true facts, so that it computes what is computed from scratch. -/
namespace Sg.Conserve
open Sg.LinearSolve Sg.Triangulate Sg.QuadIntersect Sg.Spec

section
set_option linter.unusedSectionVars false
variable {F : Type} [Zero F] [One F] [Add F] [Sub F] [Mul F] [Div F] [Neg F] [LT F] [DecidableLT F] [LE F] [DecidableLE F]
  [NatCast F]

/-- The points of a pair of cells as a function. -/
def rowPoints (g : Gels F) (dq sq : Quad F) (i j : Nat) : List (Pt F) := nodeHit g sq dq j ++ edgeHit g dq sq i j

def pairPoints (g : Gels F) (dq sq : Quad F) : List (Pt F) :=
  (List.range 4).flatMap fun i => nodeHit g dq sq i ++ (List.range 4).flatMap (rowPoints g dq sq i)

theorem mem_pairPoints {g : Gels F} {dq sq : Quad F} {p : Pt F} : p ∈ pairPoints g dq sq ↔ p ∈ collected g dq sq := by
  unfold pairPoints collected nodesIn crossings rowPoints
  simp only [List.mem_flatMap, List.mem_append, List.mem_range]
  constructor
  · rintro ⟨i, hi, h | ⟨j, hj, h | h⟩⟩
    · exact Or.inl (Or.inl ⟨i, hi, h⟩)
    · exact Or.inl (Or.inr ⟨j, hj, h⟩)
    · exact Or.inr ⟨i, hi, j, hj, h⟩
  · rintro ((⟨i, hi, h⟩ | ⟨j, hj, h⟩) | ⟨i, hi, j, hj, h⟩)
    · exact ⟨i, hi, Or.inl h⟩
    · exact ⟨0, by omega, Or.inr ⟨j, hj, Or.inl h⟩⟩
    · exact ⟨i, hi, Or.inr ⟨j, hj, Or.inr h⟩⟩

/-! ### From scratch -/

theorem scratchPoints_ok (g : Gels F) (hg : KeepsSizes g) (dq sq : Quad F) :
    scratchPoints g dq sq = .ok (pairPoints g dq sq) := by
  unfold scratchPoints
  obtain ⟨s, h1, rfl⟩ := forN_inv (fun k l => l = (List.range k).flatMap fun i => nodeHit g dq sq i ++ (List.range 4).flatMap (rowPoints g dq sq i))
    (fun i l => do
      let (_, b) ← isPointInCell g (LinearSolve.new 2 2) (dq (node i)) sq
      forN 4 (if b then l ++ [dq (node i)] else l) fun j l => do
        let (_, b) ← isPointInCell g (LinearSolve.new 2 2) (sq (node j)) dq
        let (_, r) ← (Isect.new : Isect F).collectEdge g (dq (node i)) (dq (node (i + 1))) (sq (node j))
          (sq (node (j + 1)))
        return (if b then l ++ [sq (node j)] else l) ++ r.toList) 4 [] rfl (by
    rintro i l hi rfl
    generalize hl : ((List.range i).flatMap fun i => nodeHit g dq sq i ++ (List.range 4).flatMap (rowPoints g dq sq i)) = l
    obtain ⟨sl, e, -⟩ := inCell_ok g hg _ ready_new (dq (node i)) sq
    obtain ⟨t, h1, rfl⟩ := forN_inv (fun k t => t = (l ++ nodeHit g dq sq i) ++ (List.range k).flatMap (rowPoints g dq sq i))
      (fun j l => do
        let (_, b) ← isPointInCell g (LinearSolve.new 2 2) (sq (node j)) dq
        let (_, r) ← (Isect.new : Isect F).collectEdge g (dq (node i)) (dq (node (i + 1))) (sq (node j))
          (sq (node (j + 1)))
        return (if b then l ++ [sq (node j)] else l) ++ r.toList) 4 (l ++ nodeHit g dq sq i) (by simp) (by
        rintro j t hj rfl
        obtain ⟨sl', e', -⟩ := inCell_ok g hg _ ready_new (sq (node j)) dq
        obtain ⟨sl'', e'', -⟩ := edgeX_ok g hg (Isect.new : Isect F) ready_new (dq (node i)) (dq (node (i + 1))) (sq (node j))
          (sq (node (j + 1)))
        refine ⟨_, ?_, rfl⟩
        simp only [e', e'', bind, Except.bind, pure, Except.pure, range_succ_flatMap, rowPoints, nodeHit, edgeHit]
        split <;> simp)
    refine ⟨_, ?_, rfl⟩
    have hh : (if inCell g (dq (node i)) sq = true then l ++ [dq (node i)] else l) = l ++ nodeHit g dq sq i := by
      unfold nodeHit; split <;> simp
    simp only [bind, Except.bind, pure, Except.pure] at h1
    simp only [e, bind, Except.bind, pure, Except.pure, hh, h1, range_succ_flatMap _ i, hl, List.append_assoc])
  exact h1

/-! ### The caches -/

/-- The caches hold only true facts.  `dp`, `sp` are the nodes, `dq`, `sq` the cells of the two grids, `X` the crossing of
two edges. -/
structure CacheOk (g : Gels F) (dp sp : Nat → Pt F) (dq sq : Nat → Quad F) (X : EdgeKey → Option (Pt F)) (c : Cache F) :
    Prop where
  dstIn : ∀ n j p, mfind c.dstIn (n, j) = some p → inCell g (dp n) (sq j) = true
  srcIn : ∀ i n p, mfind c.srcIn (i, n) = some p → inCell g (sp n) (dq i) = true
  noX : ∀ k ∈ c.edgeNoX, X k = none
  edgeX : ∀ k p, mfind c.edgeX k = some p → X k = some p

theorem cacheOk_empty (g : Gels F) (dp sp : Nat → Pt F) (dq sq : Nat → Quad F) (X : EdgeKey → Option (Pt F)) :
    CacheOk g dp sp dq sq X Cache.empty :=
  ⟨by intro _ _ _ h; (cases h), by intro _ _ _ h; (cases h), by intro _ h; (cases h), by intro _ _ h; (cases h)⟩

theorem mfind_madd {κ ν : Type} [DecidableEq κ] {m : List (κ × ν)} {k k' : κ} {v v' : ν}
    (h : mfind (madd m k v) k' = some v') : (k' = k ∧ v' = v) ∨ mfind m k' = some v' := by
  unfold mfind madd at h
  rw [List.lookup_cons] at h
  split at h
  · rename_i e
    left; exact ⟨by simpa using e, by cases h; rfl⟩
  · exact Or.inr h

variable {g : Gels F} (hg : KeepsSizes g) {dp sp : Nat → Pt F} {dq sq : Nat → Quad F} {X : EdgeKey → Option (Pt F)}
include hg

theorem dstNodeStep_ok {w : Work F} (hs : Ready w.1.slvr) (hc : CacheOk g dp sp dq sq X w.2) {j n : Nat} {p : Pt F}
    {q : Quad F} (hp : p = dp n) (hq : q = sq j) :
    ∃ sl c, dstNodeStep g j n p q w = .ok (w.1.put sl (if inCell g p q then [p] else []), c) ∧ Ready sl ∧
      CacheOk g dp sp dq sq X c := by
  unfold dstNodeStep
  cases hf : mfind w.2.dstIn (n, j) with
  | some p' =>
    have hin := hc.dstIn _ _ _ hf
    rw [← hp, ← hq] at hin
    exact ⟨w.1.slvr, w.2, by simp [hin, Isect.put, Isect.addPoint, pure, Except.pure], hs, hc⟩
  | none =>
    obtain ⟨sl, e, hr⟩ := inCell_ok g hg w.1.slvr hs p q
    simp only [e, bind, Except.bind, pure, Except.pure]
    split
    · rename_i hin
      refine ⟨sl, _, rfl, hr, ⟨?_, hc.srcIn, hc.noX, hc.edgeX⟩⟩
      intro n' j' p' h
      rcases mfind_madd h with ⟨hk, _⟩ | h
      · cases hk; rw [← hp, ← hq]; exact hin
      · exact hc.dstIn _ _ _ h
    · exact ⟨sl, w.2, by simp [Isect.put], hr, hc⟩

theorem srcNodeStep_ok {w : Work F} (hs : Ready w.1.slvr) (hc : CacheOk g dp sp dq sq X w.2) {i n : Nat} {p : Pt F}
    {q : Quad F} (hp : p = sp n) (hq : q = dq i) :
    ∃ sl c, srcNodeStep g i n p q w = .ok (w.1.put sl (if inCell g p q then [p] else []), c) ∧ Ready sl ∧
      CacheOk g dp sp dq sq X c := by
  unfold srcNodeStep
  cases hf : mfind w.2.srcIn (i, n) with
  | some p' =>
    have hin := hc.srcIn _ _ _ hf
    rw [← hp, ← hq] at hin
    exact ⟨w.1.slvr, w.2, by simp [hin, Isect.put, Isect.addPoint, pure, Except.pure], hs, hc⟩
  | none =>
    obtain ⟨sl, e, hr⟩ := inCell_ok g hg w.1.slvr hs p q
    simp only [e, bind, Except.bind, pure, Except.pure]
    split
    · rename_i hin
      refine ⟨sl, _, rfl, hr, ⟨hc.dstIn, ?_, hc.noX, hc.edgeX⟩⟩
      intro n' j' p' h
      rcases mfind_madd h with ⟨hk, _⟩ | h
      · cases hk; rw [← hp, ← hq]; exact hin
      · exact hc.srcIn _ _ _ h
    · exact ⟨sl, w.2, by simp [Isect.put], hr, hc⟩

theorem edgeStep_ok {w : Work F} (hs : Ready w.1.slvr) (hc : CacheOk g dp sp dq sq X w.2) {key : EdgeKey}
    {a0 a1 b0 b1 : Pt F} (hX : X key = edgeX g a0 a1 b0 b1) :
    ∃ sl c, edgeStep g key a0 a1 b0 b1 w = .ok (w.1.put sl (edgeX g a0 a1 b0 b1).toList, c) ∧ Ready sl ∧
      CacheOk g dp sp dq sq X c := by
  unfold edgeStep
  by_cases hk : key ∈ w.2.edgeNoX
  · have hn := hc.noX key hk
    rw [hX] at hn
    rw [if_pos hk]
    exact ⟨w.1.slvr, w.2, by simp [hn, Isect.put, pure, Except.pure], hs, hc⟩
  · rw [if_neg hk]
    cases hf : mfind w.2.edgeX key with
    | some p =>
      have hn := hc.edgeX _ _ hf
      rw [hX] at hn
      exact ⟨w.1.slvr, w.2, by simp [hn, Isect.put, Isect.addPoint, pure, Except.pure], hs, hc⟩
    | none =>
      obtain ⟨sl, e, hr⟩ := edgeX_ok g hg w.1 hs a0 a1 b0 b1
      simp only [e, bind, Except.bind, pure, Except.pure]
      cases he : edgeX g a0 a1 b0 b1 with
      | none =>
        refine ⟨sl, _, rfl, hr, ⟨hc.dstIn, hc.srcIn, ?_, hc.edgeX⟩⟩
        intro k hk
        rcases List.mem_cons.mp hk with rfl | hk
        · rw [hX, he]
        · exact hc.noX k hk
      | some p =>
        refine ⟨sl, _, rfl, hr, ⟨hc.dstIn, hc.srcIn, hc.noX, ?_⟩⟩
        intro k p' h
        rcases mfind_madd h with ⟨rfl, rfl⟩ | h
        · rw [hX, he]
        · exact hc.edgeX _ _ h

/-- The loops over a pair of cells add the points of the pair. -/
theorem pairStep_ok {w : Work F} (hs : Ready w.1.slvr) (hc : CacheOk g dp sp dq sq X w.2) {i j : Nat} {dn sn : Fin 4 → Nat}
    (hd : ∀ k, dq i k = dp (dn k)) (hsrc : ∀ k, sq j k = sp (sn k))
    (hX : ∀ k l, X (sortPair (dn k) (dn (k + 1)), sortPair (sn l) (sn (l + 1))) =
      edgeX g (dq i k) (dq i (k + 1)) (sq j l) (sq j (l + 1))) :
    ∃ sl c, pairStep g i j dn (dq i) sn (sq j) w = .ok (w.1.put sl (pairPoints g (dq i) (sq j)), c) ∧ Ready sl ∧
      CacheOk g dp sp dq sq X c := by
  have hX' : ∀ k l, X (sortPair (dn (node k)) (dn (node (k + 1))), sortPair (sn (node l)) (sn (node (l + 1)))) =
      edgeX g (dq i (node k)) (dq i (node (k + 1))) (sq j (node l)) (sq j (node (l + 1))) := by
    have hn : ∀ i, node (i + 1) = node i + 1 := by
      intro i; apply Fin.ext; simp only [node, Fin.val_add, Fin.val_one]; omega
    intro k l; rw [hn, hn]; exact hX _ _
  unfold pairStep
  obtain ⟨s', h1, sl, c, rfl, h2, h3⟩ := forN_inv (fun k t => ∃ sl c, t = (w.1.put sl
      ((List.range k).flatMap fun k => nodeHit g (dq i) (sq j) k ++ (List.range 4).flatMap (rowPoints g (dq i) (sq j) k)), c) ∧
        Ready sl ∧ CacheOk g dp sp dq sq X c)
    (fun k w => do
      let w ← dstNodeStep g j (dn (node k)) (dq i (node k)) (sq j) w
      forN 4 w fun l w => do
        let w ← srcNodeStep g i (sn (node l)) (sq j (node l)) (dq i) w
        edgeStep g (sortPair (dn (node k)) (dn (node (k + 1))), sortPair (sn (node l)) (sn (node (l + 1))))
          (dq i (node k)) (dq i (node (k + 1))) (sq j (node l)) (sq j (node (l + 1))) w) 4 w
    ⟨w.1.slvr, w.2, by simp [Isect.put], hs, hc⟩ (by
    rintro k t hk ⟨sl, c, rfl, hr, hcc⟩
    generalize hl : ((List.range k).flatMap fun k => nodeHit g (dq i) (sq j) k ++
      (List.range 4).flatMap (rowPoints g (dq i) (sq j) k)) = l
    obtain ⟨sl1, c1, e1, r1, k1⟩ := dstNodeStep_ok hg (w := (w.1.put sl l, c)) hr hcc (hd (node k)) (rfl : sq j = sq j)
    obtain ⟨t', h1, sl', c', rfl, h2, h3⟩ := forN_inv (fun l' t => ∃ sl' c', t = (((w.1.put sl l).put sl1
        (nodeHit g (dq i) (sq j) k)).put sl' ((List.range l').flatMap (rowPoints g (dq i) (sq j) k)), c') ∧ Ready sl' ∧
          CacheOk g dp sp dq sq X c')
      (fun l w => do
        let w ← srcNodeStep g i (sn (node l)) (sq j (node l)) (dq i) w
        edgeStep g (sortPair (dn (node k)) (dn (node (k + 1))), sortPair (sn (node l)) (sn (node (l + 1))))
          (dq i (node k)) (dq i (node (k + 1))) (sq j (node l)) (sq j (node (l + 1))) w) 4
      ((w.1.put sl l).put sl1 (nodeHit g (dq i) (sq j) k), c1) ⟨sl1, c1, by simp [Isect.put], r1, k1⟩ (by
      rintro l' t hl' ⟨sl', c', rfl, hr', hc'⟩
      obtain ⟨sl2, c2, e2, r2, k2⟩ := srcNodeStep_ok hg (w := (((w.1.put sl l).put sl1
        (nodeHit g (dq i) (sq j) k)).put sl' ((List.range l').flatMap (rowPoints g (dq i) (sq j) k)), c')) hr' hc'
        (hsrc (node l')) (rfl : dq i = dq i)
      obtain ⟨sl3, c3, e3, r3, k3⟩ := edgeStep_ok hg (w := ((((w.1.put sl l).put sl1
        (nodeHit g (dq i) (sq j) k)).put sl' ((List.range l').flatMap (rowPoints g (dq i) (sq j) k))).put sl2
          (nodeHit g (sq j) (dq i) l'), c2)) r2 k2 (hX' k l')
      refine ⟨_, ?_, sl3, c3, rfl, r3, k3⟩
      simp only [bind, Except.bind]
      rw [e2]
      simp only
      refine Eq.trans e3 ?_
      simp only [put_put, range_succ_flatMap, rowPoints, edgeHit, List.append_assoc])
    refine ⟨_, ?_, sl', c', rfl, h2, h3⟩
    simp only [bind, Except.bind] at h1 ⊢
    rw [e1]
    simp only
    refine Eq.trans h1 ?_
    simp only [put_put, range_succ_flatMap _ k, hl, List.append_assoc])
  exact ⟨sl, c, h1, h2, h3⟩

end
end Sg.Conserve
