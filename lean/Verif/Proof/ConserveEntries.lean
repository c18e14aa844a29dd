import Verif.Proof.ConserveSelf
import Verif.Props.ConserveInterp
/- Which pairs of cells have an entry in the table of weights. -/
namespace Sg.Conserve
open Sg.LinearSolve Sg.Triangulate Sg.QuadIntersect Sg.Spec Sg.Plane Sg.Props MeasureTheory

section anyArith
variable {F : Type} [Zero F] [One F] [Add F] [Sub F] [Mul F] [Div F] [Neg F] [LT F] [DecidableLT F] [LE F] [DecidableLE F]
  [NatCast F]

theorem scratchCell_entries {g : Gels F} (hg : KeepsSizes g) {sort : List (Pt F) → List (Pt F)} {mode : Mode} {src : Grid F} {sp : Nat → Pt F}
    (hs : src.Has sp) {q : Quad F} {l : List (Nat × F)} (h : scratchCell g sort mode src q = .ok l) (j : Nat) (hj : j < src.numCells) :
    (∃ w, (j, w) ∈ l) ↔ boxesOverlap q (src.cellQuad sp j) = true ∧ 3 ≤ (pairPoints g q (src.cellQuad sp j)).length := by
  unfold scratchCell at h
  simp only [bind, Except.bind] at h
  split at h
  · cases h
  rename_i A hA
  refine (forN_inv_ok (fun k l => (∀ e ∈ l, e.1 < k) ∧ ∀ j < k, ((∃ w, (j, w) ∈ l) ↔ boxesOverlap q (src.cellQuad sp j) = true ∧
    3 ≤ (pairPoints g q (src.cellQuad sp j)).length)) _ _ _ _ ⟨by simp, by intro j hj; omega⟩ ?_ h).2 j hj
  rintro k l l' hk ⟨hlt, hl⟩ h
  have skip : ¬ (boxesOverlap q (src.cellQuad sp k) = true ∧ 3 ≤ (pairPoints g q (src.cellQuad sp k)).length) →
      (∀ e ∈ l, e.1 < k + 1) ∧ ∀ j < k + 1, ((∃ w, (j, w) ∈ l) ↔ boxesOverlap q (src.cellQuad sp j) = true ∧
        3 ≤ (pairPoints g q (src.cellQuad sp j)).length) := by
    intro hno
    refine ⟨fun e he => (hlt e he).trans (Nat.lt_succ_self _), fun j hj => ?_⟩
    rcases Nat.lt_succ_iff_lt_or_eq.mp hj with h' | rfl
    · exact hl j h'
    · refine ⟨?_, fun h => absurd h hno⟩
      rintro ⟨w, hw⟩
      exact absurd (hlt _ hw) (Nat.lt_irrefl _)
  rw [src.quadCoord_ok sp hs hk] at h
  simp only at h
  cases hb : boxesOverlap q (src.cellQuad sp k) with
  | false =>
    rw [hb] at h
    cases h
    exact skip (by rw [hb]; simp)
  | true =>
    rw [hb, scratchPoints_ok g hg] at h
    simp only [if_true] at h
    split at h
    · rename_i h3
      split at h
      · cases h
      cases h
      refine ⟨fun e he => ?_, fun j hj => ?_⟩
      · rcases List.mem_append.mp he with he | he
        · exact (hlt e he).trans (Nat.lt_succ_self _)
        · rw [List.mem_singleton] at he; subst he; exact Nat.lt_succ_self _
      · rcases Nat.lt_succ_iff_lt_or_eq.mp hj with h' | rfl
        · rw [← hl j h']
          constructor
          · rintro ⟨w, hw⟩
            rcases List.mem_append.mp hw with hw | hw
            · exact ⟨w, hw⟩
            · rw [List.mem_singleton] at hw
              cases hw
              omega
          · rintro ⟨w, hw⟩
            exact ⟨w, List.mem_append_left _ hw⟩
        · exact ⟨fun _ => ⟨hb, h3⟩, fun _ => ⟨_, List.mem_append_right _ (List.mem_singleton.mpr rfl)⟩⟩
    · rename_i h3
      cases h
      exact skip fun h => h3 h.2

theorem scratchTable_entries {g : Gels F} {sort : List (Pt F) → List (Pt F)} {mode : Mode} {src dst : Grid F} {dp : Nat → Pt F}
    (hd : dst.Has dp) {t : List (Nat × List (Nat × F))} (h : scratchTable g sort mode src dst = .ok t) (i : Nat) (hi : i < dst.numCells) :
    ∃ l, scratchCell g sort mode src (dst.cellQuad dp i) = .ok l ∧ ∀ l', (i, l') ∈ t ↔ l' = l ∧ l ≠ [] := by
  unfold scratchTable at h
  refine (forN_inv_ok (fun k t => (∀ e ∈ t, e.1 < k) ∧ ∀ i < k, ∃ l, scratchCell g sort mode src (dst.cellQuad dp i) = .ok l ∧
    ∀ l', (i, l') ∈ t ↔ l' = l ∧ l ≠ []) _ _ _ _ ⟨by simp, by intro j hj; omega⟩ ?_ h).2 i hi
  rintro k t t' hk ⟨hlt, ht⟩ h
  rw [dst.quadCoord_ok dp hd hk] at h
  simp only [bind, Except.bind] at h
  split at h
  · cases h
  rename_i l hl
  simp only [pure, Except.pure] at h
  split at h
  · rename_i hnil
    cases h
    refine ⟨fun e he => (hlt e he).trans (Nat.lt_succ_self _), fun i hi => ?_⟩
    rcases Nat.lt_succ_iff_lt_or_eq.mp hi with h' | rfl
    · exact ht i h'
    · refine ⟨l, hl, fun l' => ⟨fun hm => absurd (hlt _ hm) (Nat.lt_irrefl _), fun hm => absurd hnil hm.2⟩⟩
  · rename_i hnil
    cases h
    refine ⟨fun e he => ?_, fun i hi => ?_⟩
    · rcases List.mem_append.mp he with he | he
      · exact (hlt e he).trans (Nat.lt_succ_self _)
      · rw [List.mem_singleton] at he; subst he; exact Nat.lt_succ_self _
    · rcases Nat.lt_succ_iff_lt_or_eq.mp hi with h' | rfl
      · obtain ⟨l0, e0, h0⟩ := ht i h'
        refine ⟨l0, e0, fun l' => ?_⟩
        rw [← h0, List.mem_append, List.mem_singleton]
        constructor
        · rintro (h | h)
          · exact h
          · cases h; omega
        · exact Or.inl
      · refine ⟨l, hl, fun l' => ?_⟩
        rw [List.mem_append, List.mem_singleton]
        constructor
        · rintro (h | h)
          · exact absurd (hlt _ h) (Nat.lt_irrefl _)
          · cases h; exact ⟨rfl, hnil⟩
        · rintro ⟨rfl, -⟩
          exact Or.inr rfl

/-- A corner of the source cell that is in the destination cell is collected four times. -/
theorem corner_points {g : Gels F} {d s : Quad F} (k : Fin 4) (h : inCell g (s k) d = true) : 3 ≤ (pairPoints g d s).length := by
  have hhit : ∀ i, 1 ≤ ((fun i => (List.range 4).flatMap (rowPoints g d s i)) i).length := by
    intro i
    show 1 ≤ ((List.range 4).flatMap (rowPoints g d s i)).length
    have : s k ∈ (List.range 4).flatMap (rowPoints g d s i) := by
      refine List.mem_flatMap.2 ⟨k.val, List.mem_range.2 k.isLt, List.mem_append_left _ ?_⟩
      have hk : node k.val = k := Fin.ext (Nat.mod_eq_of_lt k.isLt)
      unfold nodeHit
      rw [hk, h]
      simp
    exact List.length_pos_of_mem this
  show 3 ≤ ((List.range 4).flatMap fun i => nodeHit g d s i ++ (fun i => (List.range 4).flatMap (rowPoints g d s i)) i).length
  generalize (fun i => (List.range 4).flatMap (rowPoints g d s i)) = R at hhit ⊢
  have h0 := hhit 0
  have h1 := hhit 1
  have h2 := hhit 2
  rw [show List.range 4 = [0, 1, 2, 3] from rfl]
  simp only [List.flatMap_cons, List.length_append]
  omega

end anyArith

/-! ### Exact arithmetic -/

section exact
variable (g : Gels ℝ) (hg : GelsContract g) (sort : List P2 → List P2) (hsort : ∀ l, IsStdSort l (sort l)) (mode : Mode)
  (ddims sdims per : Nat × Nat) (dx dy sx sy : List ℝ) (hd : 1 ≤ ddims.1 ∧ 1 ≤ ddims.2) (hs : 1 ≤ sdims.1 ∧ 1 ≤ sdims.2)
  (hdx : ddims.1 * ddims.2 ≤ dx.length) (hdy : ddims.1 * ddims.2 ≤ dy.length)
  (hsx : sdims.1 * sdims.2 ≤ sx.length) (hsy : sdims.1 * sdims.2 ≤ sy.length)
  (hc : ∀ i < cellCount ddims, ∀ j < cellCount sdims, CleanCells (gridCell ddims dx dy i) (gridCell sdims sx sy j))
include hg hd hs hdx hdy hsx hsy hc

/-- The entries of the table: pairs with at least three collected points. -/
theorem entries_points (o o' : Interp ℝ) (h0 : o.weights = []) (h : setAndCompute g sort mode o ddims dx dy sdims per sx sy = .ok o')
    (i : Nat) (hi : i < cellCount ddims) (j : Nat) (hj : j < cellCount sdims) :
    (∃ l w, (i, l) ∈ o'.weights ∧ (j, w) ∈ l) ↔ boxesOverlap (gridCell ddims dx dy i) (gridCell sdims sx sy j) = true ∧
      3 ≤ (pairPoints g (gridCell ddims dx dy i) (gridCell sdims sx sy j)).length := by
  obtain ⟨dst, src, -, -, h1, h2, c1, c2, q1, q2, e⟩ := setAndCompute_eq g sort mode o ddims dx dy sdims per sx sy hd hs hdx
    hdy hsx hsy
  rw [e] at h
  rw [← q1, ← q2, ← c1, ← c2] at hc
  rw [← q1, ← q2]
  rw [← c1] at hi
  rw [← c2] at hj
  rw [computeWeights_scratch (keepsSizes hg) h1 h2 (edgesBy hg fun i hi j hj => (hc i hi j hj).clear) sort mode
    { o with dst := some dst, src := some src } rfl rfl] at h
  cases ht : scratchTable g sort mode src dst with
  | error e => rw [ht] at h; cases h
  | ok t =>
    rw [ht] at h
    have hsorted : t.Pairwise fun a b => a.1 < b.1 := by
      refine (forN_inv_ok (fun k t => (∀ e ∈ t, e.1 < k) ∧ t.Pairwise fun a b => a.1 < b.1) _ _ _ _ ⟨by simp, List.Pairwise.nil⟩ ?_ ht).2
      rintro k t t' hk ⟨hlt, hp⟩ h
      simp only [bind, Except.bind] at h
      split at h
      · cases h
      split at h
      · cases h
      cases h
      split
      · exact ⟨fun e he => (hlt e he).trans (Nat.lt_succ_self _), hp⟩
      · refine ⟨fun e he => ?_, List.pairwise_append.mpr ⟨hp, by simp, ?_⟩⟩
        · rcases List.mem_append.mp he with he | he
          · exact (hlt e he).trans (Nat.lt_succ_self _)
          · rw [List.mem_singleton] at he; subst he; exact Nat.lt_succ_self _
        · intro e he e' he'
          rw [List.mem_singleton] at he'
          subst he'
          exact hlt e he
    have he : o'.weights = t := by
      have : o' = { o with dst := some dst, src := some src, weights := t.foldl (fun t e => Table.insert t e.1 e.2) o.weights } := by
        injection h with h; exact h.symm
      rw [this, h0]
      show t.foldl (fun t e => Table.insert t e.1 e.2) [] = t
      rw [foldl_insert t [] (by simpa using hsorted)]
      rfl
    rw [he]
    obtain ⟨l, hl, hm⟩ := scratchTable_entries h1 ht i hi
    rw [← scratchCell_entries (keepsSizes hg) h2 hl j hj]
    constructor
    · rintro ⟨l', w, h, hw⟩
      obtain ⟨rfl, -⟩ := (hm l').1 h
      exact ⟨w, hw⟩
    · rintro ⟨w, hw⟩
      exact ⟨l, w, (hm l).2 ⟨rfl, List.ne_nil_of_mem hw⟩, hw⟩

/-- A source cell with a corner in the destination cell has an entry. -/
theorem entry_corner (o o' : Interp ℝ) (h0 : o.weights = []) (h : setAndCompute g sort mode o ddims dx dy sdims per sx sy = .ok o')
    (i : Nat) (hi : i < cellCount ddims) (j : Nat) (hj : j < cellCount sdims) (k : Fin 4)
    (hk : gridCell sdims sx sy j k ∈ quadRegion (gridCell ddims dx dy i)) : ∃ l w, (i, l) ∈ o'.weights ∧ (j, w) ∈ l := by
  rw [entries_points g hg sort mode ddims sdims per dx dy sx sy hd hs hdx hdy hsx hsy hc o o' h0 h i hi j hj]
  refine ⟨?_, corner_points k (inCell_of_mem hg (hc i hi j hj).dst hk)⟩
  have := C50_box_keeps_overlaps Isect.new (gridCell ddims dx dy i) (gridCell sdims sx sy j) _ hk (corner_region _ k)
  injection this

/-- A source cell with an entry has a point in common with the destination cell. -/
theorem entry_meet (o o' : Interp ℝ) (h0 : o.weights = []) (h : setAndCompute g sort mode o ddims dx dy sdims per sx sy = .ok o')
    (i : Nat) (hi : i < cellCount ddims) (j : Nat) (hj : j < cellCount sdims) (he : ∃ l w, (i, l) ∈ o'.weights ∧ (j, w) ∈ l) :
    (quadRegion (gridCell ddims dx dy i) ∩ quadRegion (gridCell sdims sx sy j)).Nonempty := by
  rw [entries_points g hg sort mode ddims sdims per dx dy sx sy hd hs hdx hdy hsx hsy hc o o' h0 h i hi j hj] at he
  rw [← hull_pairPoints hg (hc i hi j hj)]
  obtain ⟨p, hp⟩ := List.exists_mem_of_length_pos (show 0 < (pairPoints g (gridCell ddims dx dy i) (gridCell sdims sx sy j)).length by omega)
  exact ⟨p, subset_convexHull ℝ _ hp⟩

end exact

end Sg.Conserve
