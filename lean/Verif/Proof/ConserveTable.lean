import Verif.Proof.Loops
import Verif.Proof.ConserveCache
/- `computeWeights` gives the table computed from scratch. -/
namespace Sg.Conserve
open Sg.LinearSolve Sg.Triangulate Sg.QuadIntersect Sg.Spec

section
set_option linter.unusedSectionVars false
variable {F : Type} [Zero F] [One F] [Add F] [Sub F] [Mul F] [Div F] [Neg F] [LT F] [DecidableLT F] [LE F] [DecidableLE F]
  [NatCast F]

/-- Crossings depend on the edges only, not on the cells and directions by which they are reached: `X` gives the crossing
for a pair of edges. -/
def EdgesBy (g : Gels F) (dst src : Grid F) (dp sp : Nat → Pt F) (X : EdgeKey → Option (Pt F)) : Prop :=
  ∀ i < dst.numCells, ∀ j < src.numCells, ∀ k l : Fin 4,
    X (sortPair (dst.cellNode i k) (dst.cellNode i (k + 1)), sortPair (src.cellNode j l) (src.cellNode j (l + 1))) =
      edgeX g (dst.cellQuad dp i k) (dst.cellQuad dp i (k + 1)) (src.cellQuad sp j l) (src.cellQuad sp j (l + 1))

variable {g : Gels F} (hg : KeepsSizes g) {dst src : Grid F} {dp sp : Nat → Pt F} (hd : dst.Has dp) (hs : src.Has sp)
  {X : EdgeKey → Option (Pt F)} (hX : EdgesBy g dst src dp sp X) (sort : List (Pt F) → List (Pt F)) (mode : Mode)
include hg hd hs hX

theorem srcStep_rel {i j : Nat} (hi : i < dst.numCells) (hj : j < src.numCells) (dstArea : F) {w : Work F}
    (hr : Ready w.1.slvr) (hc : CacheOk g dp sp (dst.cellQuad dp) (src.cellQuad sp) X w.2) (l : List (Nat × F)) :
    Cxx.Rel (fun (a : Work F × List (Nat × F)) b => Ready a.1.1.slvr ∧
        CacheOk g dp sp (dst.cellQuad dp) (src.cellQuad sp) X a.1.2 ∧ a.2 = b)
      (srcStep g sort mode src i (dst.cellNode i) (dst.cellQuad dp i) dstArea j (w, l))
      (do
        let (_, srcQuad) ← src.quadCoord j
        if boxesOverlap (dst.cellQuad dp i) srcQuad then
          let pts ← scratchPoints g (dst.cellQuad dp i) srcQuad
          if 3 ≤ pts.length then
            let area ← hullArea mode (sort pts)
            return l ++ [(j, area / dstArea)]
          else return l
        else return l) := by
  unfold srcStep
  rw [src.quadCoord_ok sp hs hj]
  simp only [bind, Except.bind, pure, Except.pure, Isect.checkIfBoxesOverlap, Isect.setQuadPoints]
  cases hb : boxesOverlap (dst.cellQuad dp i) (src.cellQuad sp j) with
  | false => exact Or.inl ⟨_, _, rfl, rfl, hr, hc, rfl⟩
  | true =>
    obtain ⟨sl, c, e, r, k⟩ := pairStep_ok hg
      (w := (({ w.1.reset with quad1 := some (dst.cellQuad dp i), quad2 := some (src.cellQuad sp j) } : Isect F), w.2))
      hr hc (i := i) (j := j) (dn := dst.cellNode i) (sn := src.cellNode j) (fun _ => rfl) (fun _ => rfl)
      (fun k l => hX i hi j hj k l)
    simp only [if_true, e, scratchPoints_ok g hg]
    have hp : ({ w.1.reset with quad1 := some (dst.cellQuad dp i), quad2 := some (src.cellQuad sp j) } : Isect F).put sl
        (pairPoints g (dst.cellQuad dp i) (src.cellQuad sp j)) =
        { slvr := sl, quad1 := some (dst.cellQuad dp i), quad2 := some (src.cellQuad sp j),
          pts := pairPoints g (dst.cellQuad dp i) (src.cellQuad sp j) } := by
      simp [Isect.put, Isect.reset]
    rw [hp]
    simp only
    by_cases h3 : 3 ≤ (pairPoints g (dst.cellQuad dp i) (src.cellQuad sp j)).length
    · simp only [if_pos h3]
      cases hullArea mode (sort (pairPoints g (dst.cellQuad dp i) (src.cellQuad sp j))) with
      | error e => exact Or.inr ⟨e, rfl, rfl⟩
      | ok a => exact Or.inl ⟨_, _, rfl, rfl, r, k, rfl⟩
    · simp only [if_neg h3]
      exact Or.inl ⟨_, _, rfl, rfl, r, k, rfl⟩

theorem dstStep_rel {i : Nat} (hi : i < dst.numCells) {w : Work F} (hr : Ready w.1.slvr)
    (hc : CacheOk g dp sp (dst.cellQuad dp) (src.cellQuad sp) X w.2) (t0 : Table F) (t : List (Nat × List (Nat × F))) :
    Cxx.Rel (fun (a : Work F × Table F) (b : List (Nat × List (Nat × F))) => Ready a.1.1.slvr ∧
        CacheOk g dp sp (dst.cellQuad dp) (src.cellQuad sp) X a.1.2 ∧ a.2 = b.foldl (fun t e => Table.insert t e.1 e.2) t0)
      (dstStep g sort mode src dst i (w, t.foldl (fun t e => Table.insert t e.1 e.2) t0))
      (do
        let (_, dstQuad) ← dst.quadCoord i
        let l ← scratchCell g sort mode src dstQuad
        return if l = [] then t else t ++ [(i, l)]) := by
  unfold dstStep scratchCell
  rw [dst.quadCoord_ok dp hd hi]
  simp only [bind, Except.bind, pure, Except.pure]
  cases hullArea mode (sort [dst.cellQuad dp i 0, dst.cellQuad dp i 1, dst.cellQuad dp i 2, dst.cellQuad dp i 3]) with
  | error e => exact Or.inr ⟨e, rfl, rfl⟩
  | ok dstArea =>
    simp only
    have key := forN_rel (fun _ (a : Work F × List (Nat × F)) (b : List (Nat × F)) => Ready a.1.1.slvr ∧
        CacheOk g dp sp (dst.cellQuad dp) (src.cellQuad sp) X a.1.2 ∧ a.2 = b)
      (srcStep g sort mode src i (dst.cellNode i) (dst.cellQuad dp i) dstArea)
      (fun j l => do
        let (_, srcQuad) ← src.quadCoord j
        if boxesOverlap (dst.cellQuad dp i) srcQuad then
          let pts ← scratchPoints g (dst.cellQuad dp i) srcQuad
          if 3 ≤ pts.length then
            let area ← hullArea mode (sort pts)
            return l ++ [(j, area / dstArea)]
          else return l
        else return l) src.numCells (w, []) [] ⟨hr, hc, rfl⟩ (by
      rintro j ⟨w, l⟩ l' hj ⟨hr, hc, rfl⟩
      exact srcStep_rel hg hd hs hX sort mode hi hj dstArea hr hc l)
    simp only [bind, Except.bind, pure, Except.pure] at key
    rcases key with ⟨⟨w', l⟩, l', e1, e2, r, k, rfl⟩ | ⟨e, e1, e2⟩
    · rw [e1, e2]
      refine Or.inl ⟨_, _, rfl, rfl, r, k, ?_⟩
      simp only
      cases l with
      | nil => rfl
      | cons a l => simp
    · rw [e1, e2]
      exact Or.inr ⟨e, rfl, rfl⟩

theorem computeWeights_scratch (o : Interp F) (h1 : o.dst = some dst) (h2 : o.src = some src) :
    o.computeWeights g sort mode = (scratchTable g sort mode src dst).map fun t =>
      { o with weights := t.foldl (fun t e => Table.insert t e.1 e.2) o.weights } := by
  unfold Interp.computeWeights scratchTable
  rw [h1, h2]
  have key := forN_rel (fun _ (a : Work F × Table F) (b : List (Nat × List (Nat × F))) => Ready a.1.1.slvr ∧
      CacheOk g dp sp (dst.cellQuad dp) (src.cellQuad sp) X a.1.2 ∧
      a.2 = b.foldl (fun t e => Table.insert t e.1 e.2) o.weights)
    (dstStep g sort mode src dst)
    (fun i t => do
      let (_, dstQuad) ← dst.quadCoord i
      let l ← scratchCell g sort mode src dstQuad
      return if l = [] then t else t ++ [(i, l)]) dst.numCells ((Isect.new, Cache.empty), o.weights) []
    ⟨ready_new, cacheOk_empty _ _ _ _ _ _, rfl⟩ (by
    rintro i ⟨w, t⟩ t' hi ⟨hr, hc, rfl⟩
    exact dstStep_rel hg hd hs hX sort mode hi hr hc _ t')
  simp only [bind, Except.bind, pure, Except.pure] at key ⊢
  rcases key with ⟨⟨w', l⟩, l', e1, e2, r, k, rfl⟩ | ⟨e, e1, e2⟩
  · rw [e1, e2]; rfl
  · rw [e1, e2]; rfl

end

/-! ### Tables -/

section
variable {F : Type}

theorem insert_last {t : Table F} {k : Nat} {v : List (Nat × F)} (h : ∀ e ∈ t, e.1 < k) : Table.insert t k v = t ++ [(k, v)] := by
  induction t with
  | nil => rfl
  | cons e t ih =>
    have he := h e (List.mem_cons_self ..)
    unfold Table.insert
    rw [if_neg (by omega), if_pos he, ih (fun e' h' => h e' (List.mem_cons_of_mem _ h'))]
    rfl

theorem foldl_insert (t : List (Nat × List (Nat × F))) : ∀ (t0 : Table F), (t0 ++ t).Pairwise (fun a b => a.1 < b.1) →
    t.foldl (fun t e => Table.insert t e.1 e.2) t0 = t0 ++ t := by
  induction t with
  | nil => intro t0 _; simp
  | cons e t ih =>
    intro t0 h
    rw [List.foldl_cons, insert_last, ih]
    · simp
    · simpa using h
    · intro e' he'
      exact (List.pairwise_append.mp h).2.2 e' he' e (List.mem_cons_self ..)

theorem insert_present {t : Table F} {k : Nat} {v : List (Nat × F)} (h : t.Pairwise (fun a b => a.1 < b.1))
    (hk : ∃ e ∈ t, e.1 = k) : Table.insert t k v = t := by
  induction t with
  | nil => obtain ⟨e, he, _⟩ := hk; cases he
  | cons e t ih =>
    obtain ⟨hh, ht⟩ := List.pairwise_cons.mp h
    unfold Table.insert
    obtain ⟨e', he', rfl⟩ := hk
    rcases List.mem_cons.mp he' with rfl | he'
    · rw [if_neg (by omega), if_neg (by omega)]
    · have := hh e' he'
      rw [if_neg (by omega), if_pos this, ih ht ⟨e', he', rfl⟩]

theorem mem_insert {t : Table F} {k : Nat} {v : List (Nat × F)} {e : Nat × List (Nat × F)} (h : e ∈ Table.insert t k v) :
    e = (k, v) ∨ e ∈ t := by
  induction t with
  | nil => exact Or.inl (by simpa [Table.insert] using h)
  | cons e' t ih =>
    unfold Table.insert at h
    split at h
    · rcases List.mem_cons.mp h with h | h
      · exact Or.inl h
      · exact Or.inr h
    · split at h
      · rcases List.mem_cons.mp h with h | h
        · exact Or.inr (h ▸ List.mem_cons_self ..)
        · rcases ih h with h | h
          · exact Or.inl h
          · exact Or.inr (List.mem_cons_of_mem _ h)
      · exact Or.inr h

theorem insert_sorted {t : Table F} {k : Nat} {v : List (Nat × F)} (h : t.Pairwise (fun a b => a.1 < b.1)) :
    (Table.insert t k v).Pairwise (fun a b => a.1 < b.1) := by
  induction t with
  | nil => simp [Table.insert]
  | cons e t ih =>
    obtain ⟨hh, ht⟩ := List.pairwise_cons.mp h
    unfold Table.insert
    split
    · rename_i hk
      refine List.pairwise_cons.mpr ⟨?_, h⟩
      intro e' he'
      rcases List.mem_cons.mp he' with rfl | he'
      · exact hk
      · have := hh e' he'; simp only; omega
    · split
      · rename_i hk
        refine List.pairwise_cons.mpr ⟨?_, ih ht⟩
        intro e' he'
        rcases mem_insert he' with rfl | he'
        · exact hk
        · exact hh e' he'
      · exact h

theorem insert_keeps {t : Table F} {k : Nat} {v : List (Nat × F)} {e : Nat × List (Nat × F)} (h : e ∈ t) :
    e ∈ Table.insert t k v := by
  induction t with
  | nil => cases h
  | cons e' t ih =>
    unfold Table.insert
    split
    · exact List.mem_cons_of_mem _ h
    · split
      · rcases List.mem_cons.mp h with rfl | h
        · exact List.mem_cons_self ..
        · exact List.mem_cons_of_mem _ (ih h)
      · exact h

theorem insert_new {t : Table F} {k : Nat} {v : List (Nat × F)} (h : ∀ e ∈ t, e.1 ≠ k) : (k, v) ∈ Table.insert t k v := by
  induction t with
  | nil => simp [Table.insert]
  | cons e t ih =>
    have := h e (List.mem_cons_self ..)
    unfold Table.insert
    split
    · exact List.mem_cons_self ..
    · split
      · exact List.mem_cons_of_mem _ (ih fun e' h' => h e' (List.mem_cons_of_mem _ h'))
      · omega

end

section
set_option linter.unusedSectionVars false
variable {F : Type} [Zero F] [One F] [Add F] [Sub F] [Mul F] [Div F] [Neg F] [LT F] [DecidableLT F] [LE F] [DecidableLE F]
  [NatCast F]

theorem scratchTable_sorted {g : Gels F} {sort : List (Pt F) → List (Pt F)} {mode : Mode} {src dst : Grid F}
    {t : List (Nat × List (Nat × F))} (h : scratchTable g sort mode src dst = .ok t) : t.Pairwise (fun a b => a.1 < b.1) := by
  unfold scratchTable at h
  refine (forN_inv_ok (fun k (t : List (Nat × List (Nat × F))) => t.Pairwise (fun a b => a.1 < b.1) ∧ ∀ e ∈ t, e.1 < k) _ _ _ _
    ⟨List.Pairwise.nil, by intro e he; (cases he)⟩ ?_ h).1
  rintro i t t' hi ⟨hp, hl⟩ h
  simp only [bind, Except.bind, pure, Except.pure] at h
  split at h
  · cases h
  split at h
  · cases h
  cases h
  split
  · exact ⟨hp, fun e he => (hl e he).trans (Nat.lt_succ_self _)⟩
  · refine ⟨List.pairwise_append.mpr ⟨hp, by simp, ?_⟩, ?_⟩
    · intro e he e' he'
      rw [List.mem_singleton] at he'
      subst he'
      exact hl e he
    · intro e he
      rcases List.mem_append.mp he with he | he
      · exact (hl e he).trans (Nat.lt_succ_self _)
      · rw [List.mem_singleton] at he; subst he; exact Nat.lt_succ_self _

end
end Sg.Conserve
