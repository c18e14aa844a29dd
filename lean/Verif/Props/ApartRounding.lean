import Verif.Props.ConserveRounding
/-
Property C160: cells that are apart, in rounded arithmetic.
-/
namespace Sg.Props
open Sg Sg.LinearSolve Sg.Triangulate Sg.QuadIntersect Sg.Conserve Sg.Spec Sg.Plane MeasureTheory

section general
variable {F : Type} [Zero F] [One F] [Add F] [Sub F] [Mul F] [Div F] [Neg F] [LT F] [DecidableLT F] [LE F] [DecidableLE F]
  [NatCast F]

/-- The entries of a table are pairs of cells whose boxes overlap. -/
theorem entries_overlap {g : Gels F} {sort : List (Pt F) → List (Pt F)} {mode : Mode} {dst src : Grid F} {dp sp : Nat → Pt F} (hd : dst.Has dp)
    (hs : src.Has sp) {o o' : Interp F} (h1 : o.dst = some dst) (h2 : o.src = some src) (h0 : o.weights = [])
    (h : o.computeWeights g sort mode = .ok o') :
    (o'.weights.Pairwise fun a b => a.1 < b.1) ∧ ∀ e ∈ o'.weights, e.1 < dst.numCells ∧ e.2 ≠ [] ∧
      ∀ p ∈ e.2, p.1 < src.numCells ∧ boxesOverlap (dst.cellQuad dp e.1) (src.cellQuad sp p.1) = true := by
  unfold Interp.computeWeights at h
  rw [h1, h2] at h
  obtain ⟨⟨w, t⟩, e1, h⟩ := FindPoint.bind_ok_inv h
  cases h
  refine forN_inv_ok (fun _ (s : Work F × Table F) => (s.2.Pairwise fun a b => a.1 < b.1) ∧ ∀ e ∈ s.2, e.1 < dst.numCells ∧ e.2 ≠ [] ∧
      ∀ p ∈ e.2, p.1 < src.numCells ∧ boxesOverlap (dst.cellQuad dp e.1) (src.cellQuad sp p.1) = true) _ _ _ (w, t) ?_ ?_ e1
  · show (o.weights.Pairwise _) ∧ _
    dsimp only
    rw [h0]
    exact ⟨List.Pairwise.nil, fun e he => absurd he List.not_mem_nil⟩
  · rintro i ⟨w, t⟩ ⟨w', t'⟩ hi ⟨hp, ht⟩ e
    dsimp only at hp ht ⊢
    unfold dstStep at e
    rw [Grid.quadCoord_ok dst dp hd hi] at e
    obtain ⟨_, hq, e⟩ := FindPoint.bind_ok_inv e
    cases hq
    obtain ⟨A, -, e⟩ := FindPoint.bind_ok_inv e
    obtain ⟨⟨w2, l⟩, el, e⟩ := FindPoint.bind_ok_inv e
    cases e
    have hl : ∀ p ∈ l, p.1 < src.numCells ∧ boxesOverlap (dst.cellQuad dp i) (src.cellQuad sp p.1) = true := by
      refine forN_inv_ok (fun _ (s : Work F × List (Nat × F)) => ∀ p ∈ s.2, p.1 < src.numCells ∧
        boxesOverlap (dst.cellQuad dp i) (src.cellQuad sp p.1) = true) _ _ _ (w', l) (fun p hp => absurd hp List.not_mem_nil) ?_ el
      rintro j ⟨w, l⟩ ⟨w', l'⟩ hj hl e
      dsimp only at hl ⊢
      unfold srcStep at e
      rw [Grid.quadCoord_ok src sp hs hj] at e
      obtain ⟨_, hq, e⟩ := FindPoint.bind_ok_inv e
      cases hq
      obtain ⟨b, hb, e⟩ := FindPoint.bind_ok_inv e
      have hb' : boxesOverlap (dst.cellQuad dp i) (src.cellQuad sp j) = b := by
        cases hb
        rfl
      cases b with
      | false => cases e; exact hl
      | true =>
        simp only [if_true] at e
        obtain ⟨w3, -, e⟩ := FindPoint.bind_ok_inv e
        split_ifs at e
        · obtain ⟨B, -, e⟩ := FindPoint.bind_ok_inv e
          cases e
          intro p hp
          rcases List.mem_append.1 hp with hp | hp
          · exact hl p hp
          · rw [List.mem_singleton.1 hp]
            exact ⟨hj, hb'⟩
        · cases e; exact hl
    split_ifs with hlen
    · refine ⟨insert_sorted hp, fun e he => ?_⟩
      rcases mem_insert he with rfl | he
      · exact ⟨hi, List.ne_nil_of_length_pos hlen, hl⟩
      · exact ht e he
    · exact ⟨hp, ht⟩

end general

variable {rnd : ℝ → ℝ}

/-- **C160** In any rounded arithmetic (whatever `rnd` does), with any solver and sort, for grids of any shapes: once weights are computed, a destination cell whose box is
apart from the boxes of all source cells has none, and `apply` leaves the caller's value there.  The value of any destination cell depends on the data of the source cells
only whose boxes are not apart from its own, to the last bit. -/
theorem C160_apart (g : Gels (Fl rnd)) (sort : List (Pt (Fl rnd)) → List (Pt (Fl rnd))) (mode : Mode)
    (ddims sdims per : Nat × Nat) (dx dy sx sy : List (Fl rnd)) (hd : 1 ≤ ddims.1 ∧ 1 ≤ ddims.2) (hs : 1 ≤ sdims.1 ∧ 1 ≤ sdims.2)
    (hdx : ddims.1 * ddims.2 ≤ dx.length) (hdy : ddims.1 * ddims.2 ≤ dy.length)
    (hsx : sdims.1 * sdims.2 ≤ sx.length) (hsy : sdims.1 * sdims.2 ≤ sy.length) (o o' : Interp (Fl rnd)) (h0 : o.weights = [])
    (h : setAndCompute g sort mode o ddims dx dy sdims per sx sy = .ok o')
    (src src' dst : List (Fl rnd)) (hsrc : cellCount sdims ≤ src.length) (hsrc' : cellCount sdims ≤ src'.length) (hdst : cellCount ddims ≤ dst.length) :
    ∃ f f', o'.apply src dst = .ok f ∧ o'.apply src' dst = .ok f' ∧ ∀ i < cellCount ddims,
      ((∀ j < cellCount sdims, BoxesApart (gridCell ddims (flVals dx) (flVals dy) i) (gridCell sdims (flVals sx) (flVals sy) j)) →
        (∀ l, (i, l) ∉ o'.weights) ∧ f[i]? = dst[i]?) ∧
      ((∀ j < cellCount sdims, BoxesApart (gridCell ddims (flVals dx) (flVals dy) i) (gridCell sdims (flVals sx) (flVals sy) j) ∨ src'[j]? = src[j]?) →
        f'[i]? = f[i]?) := by
  obtain ⟨dg, sg, -, -, h1, h2, c1, c2, q1, q2, e⟩ := setAndCompute_eq g sort mode o ddims dx dy sdims per sx sy hd hs hdx hdy hsx hsy
  rw [e] at h
  obtain ⟨hsorted, hent⟩ := entries_overlap (o := { o with dst := some dg, src := some sg }) h1 h2 rfl rfl h0 h
  rw [c1, c2, q1, q2] at hent
  have hmeet : ∀ i l, (i, l) ∈ o'.weights → ∀ p ∈ l, ¬ BoxesApart (gridCell ddims (flVals dx) (flVals dy) i) (gridCell sdims (flVals sx) (flVals sy) p.1) := by
    intro i l hl p hp hb
    have := ((hent (i, l) hl).2.2 p hp).2
    rw [boxesOverlap_val, valQuad_gridCell, valQuad_gridCell, apart_boxes hb] at this
    cases this
  obtain ⟨f, ef, -, hf⟩ := apply_ok o' src dst hsorted fun e he => ⟨(hent e he).1.trans_le hdst, fun p hp => ((hent e he).2.2 p hp).1.trans_le hsrc⟩
  obtain ⟨f', ef', -, hf'⟩ := apply_ok o' src' dst hsorted fun e he => ⟨(hent e he).1.trans_le hdst, fun p hp => ((hent e he).2.2 p hp).1.trans_le hsrc'⟩
  refine ⟨f, f', ef, ef', fun i hi => ⟨fun ha => ?_, fun ha => ?_⟩⟩
  · have hno : ∀ l, (i, l) ∉ o'.weights := by
      intro l hl
      obtain ⟨p, hp⟩ := List.exists_mem_of_ne_nil _ (hent (i, l) hl).2.1
      exact hmeet i l hl p hp (ha _ ((hent (i, l) hl).2.2 p hp).1)
    refine ⟨hno, ?_⟩
    rw [hf i]
    have : o'.weights.lookup i = none := by
      rw [List.lookup_eq_none_iff]
      rintro ⟨k, l⟩ hp
      rw [bne_iff_ne]
      rintro rfl
      exact hno l hp
    rw [this]
  · rw [hf i, hf' i]
    cases hlk : o'.weights.lookup i with
    | none => rfl
    | some l =>
      have hl : (i, l) ∈ o'.weights := by
        obtain ⟨l1, l2, hw, -⟩ := List.lookup_eq_some_iff.1 hlk
        rw [hw]
        simp
      dsimp only
      congr 1
      unfold weightedSum
      refine List.foldl_ext _ _ _ fun acc p hp => ?_
      have := (ha p.1 ((hent (i, l) hl).2.2 p hp).1).resolve_left (hmeet i l hl p hp)
      simp only [List.getD_eq_getElem?_getD, this]

/-! ### An example: destination cells `[3,5] x [1,3]` and `[5,7] x [1,3]`, source cells `[0,2] x [0,4]` and `[2,4] x [0,4]` -/

def apDx : List ℤ := [3, 3, 5, 5, 7, 7]
def apDy : List ℤ := [1, 3, 1, 3, 1, 3]
def apSx : List ℤ := [0, 0, 2, 2, 4, 4]
def apSy : List ℤ := [0, 4, 0, 4, 0, 4]

theorem apD_cell : ∀ i < cellCount (3, 2), gridCell (3, 2) (flVals (flList apDx : List (Fl rnd))) (flVals (flList apDy : List (Fl rnd))) i =
    zquad (if i = 0 then exZ 3 5 1 3 else exZ 5 7 1 3) := by
  intro i hi
  rcases (show i = 0 ∨ i = 1 by simp [cellCount] at hi; omega) with rfl | rfl <;>
  · funext k
    fin_cases k <;> simp [gridCell, gridCellAt, gridNode, flVals, flList, apDx, apDy, zquad, exZ]

theorem apS_cell : ∀ i < cellCount (3, 2), gridCell (3, 2) (flVals (flList apSx : List (Fl rnd))) (flVals (flList apSy : List (Fl rnd))) i =
    zquad (if i = 0 then exZ 0 2 0 4 else exZ 2 4 0 4) := by
  intro i hi
  rcases (show i = 0 ∨ i = 1 by simp [cellCount] at hi; omega) with rfl | rfl <;>
  · funext k
    fin_cases k <;> simp [gridCell, gridCellAt, gridNode, flVals, flList, apSx, apSy, zquad, exZ]

theorem ap_cells (i : Nat) (hi : i < cellCount (3, 2)) :
    SizedBy 2 16 (gridCell (3, 2) (flVals (flList apDx : List (Fl rnd))) (flVals (flList apDy : List (Fl rnd))) i) ∧
      TolClean2 (Set.range (gridCell (3, 2) (flVals (flList apDx : List (Fl rnd))) (flVals (flList apDy : List (Fl rnd))) i)) ∧
      area (quadRegion (gridCell (3, 2) (flVals (flList apDx : List (Fl rnd))) (flVals (flList apDy : List (Fl rnd))) i)) = 4 := by
  rw [apD_cell i hi]
  refine ⟨?_, range_tolClean2 _, ?_⟩
  · split <;>
    · intro i j
      fin_cases i <;> fin_cases j <;> norm_num [zquad, exZ]
  · split <;> rw [ex_box (by decide) (by decide), area_box (by norm_num) (by norm_num)] <;> norm_num

theorem ap_pairs (i : Nat) (hi : i < cellCount (3, 2)) (j : Nat) (hj : j < cellCount (3, 2)) :
    SafePair (1 / 64) (gridCell (3, 2) (flVals (flList apDx : List (Fl rnd))) (flVals (flList apDy : List (Fl rnd))) i)
      (gridCell (3, 2) (flVals (flList apSx : List (Fl rnd))) (flVals (flList apSy : List (Fl rnd))) j) ∧
    TolClean2 (cornerPoints (gridCell (3, 2) (flVals (flList apDx : List (Fl rnd))) (flVals (flList apDy : List (Fl rnd))) i)
      (gridCell (3, 2) (flVals (flList apSx : List (Fl rnd))) (flVals (flList apSy : List (Fl rnd))) j)) := by
  rw [apD_cell i hi, apS_cell j hj]
  split <;> split <;>
  exact ⟨safePair_int (N := 8) (by norm_num) (by norm_num) (by norm_num) (by decide) (by decide) (by decide) (by decide) (by decide)
    (by decide) (by decide), corner_frac (by decide) (by decide)⟩

theorem ap_apart (i : Nat) (hi : i < cellCount (3, 2)) (j : Nat) (hj : j < cellCount (3, 2)) (hij : i = 1 ∨ j = 0) :
    BoxesApart (gridCell (3, 2) (flVals (flList apDx : List (Fl rnd))) (flVals (flList apDy : List (Fl rnd))) i)
      (gridCell (3, 2) (flVals (flList apSx : List (Fl rnd))) (flVals (flList apSy : List (Fl rnd))) j) := by
  rw [apD_cell i hi, apS_cell j hj]
  right; left
  intro a b
  rcases hij with rfl | rfl
  · rw [if_neg one_ne_zero]
    split <;> fin_cases a <;> fin_cases b <;> norm_num [zquad, exZ]
  · rw [if_pos rfl]
    split <;> fin_cases a <;> fin_cases b <;> norm_num [zquad, exZ]

theorem ap_consts : KeepsConsts (nearest 64) where
  two := by have := nearest_exact (p := 64) (m := 1) (k := 1) (by norm_num); norm_num at this; exact this
  half := by have := nearest_exact (p := 64) (m := 1) (k := -1) (by norm_num); norm_num at this; norm_num; exact this
  tera := by have := nearest_exact (p := 64) (m := 1000000000000) (k := 0) (by norm_num); norm_num at this; exact this

theorem ap_gels : GelsStable (nearGels (nearest 64)) (2 ^ (-(63 : ℤ))) := by
  have := nearGels_stable (nearest_rounds 64) (by norm_num)
  norm_num at this ⊢
  exact this

theorem ap_solves {g : Gels (Fl (nearest 64))} (hg : GelsStable g (2 ^ (-(63 : ℤ)))) :
    SolvesFinely (nearest 64) g (2 ^ (-(64 : ℤ))) (2 ^ (-(63 : ℤ))) (1 / 64) where
  rounds := nearest_rounds 64
  consts := ap_consts
  unit := by norm_num
  pos := by norm_num
  shape := by norm_num
  small := by norm_num [solveError]
  stable := hg

theorem ap_fine : FineBy (nearest 64) (2 ^ (-(64 : ℤ))) 0 (crossError (2 ^ (-(64 : ℤ))) (2 ^ (-(63 : ℤ))) (1 / 64) 2 16) 2 where
  rounds := nearest_rounds 64
  consts := ap_consts
  near := by norm_num [crossError, solveError]
  size := by norm_num
  small := by norm_num [crossError, solveError, sumError, prodError, diffError]

theorem ap_big : overlapError (2 ^ (-(64 : ℤ))) (crossError (2 ^ (-(64 : ℤ))) (2 ^ (-(63 : ℤ))) (1 / 64) 2 16) 2 4 < 4 := by
  norm_num [overlapError, areaError, crossError, solveError, sumError, prodError, diffError]

/-- The hypotheses are met with 64 bits (extended double precision).  The first destination cell overlaps the second source cell, its value does not depend on the datum of the first one; the
second destination cell keeps the caller's 8. -/
example : ∃ (o' : Interp (Fl (nearest 64))) (f f' : List (Fl (nearest 64))), setAndCompute (nearGels (nearest 64)) flSort .keptBuffer
      { src := none, dst := none, weights := [], it := none, it2 := none } (3, 2) (flList apDx) (flList apDy) (3, 2) (0, 0) (flList apSx)
      (flList apSy) = .ok o' ∧
    (∃ w, (0, 1, w) ∈ triples o'.weights) ∧ o'.apply [⟨1⟩, ⟨2⟩] [⟨7⟩, ⟨8⟩] = .ok f ∧ o'.apply [⟨100⟩, ⟨2⟩] [⟨7⟩, ⟨8⟩] = .ok f' ∧
    f[1]? = some ⟨8⟩ ∧ f'[0]? = f[0]? := by
  have hcount : cellCount (3, 2) = 2 := rfl
  have hmeet : 0 < area (quadRegion (gridCell (3, 2) (flVals (flList apDx : List (Fl (nearest 64)))) (flVals (flList apDy : List (Fl (nearest 64)))) 0) ∩
      quadRegion (gridCell (3, 2) (flVals (flList apSx : List (Fl (nearest 64)))) (flVals (flList apSy : List (Fl (nearest 64)))) 1)) := by
    rw [apD_cell 0 (by decide), apS_cell 1 (by decide)]
    simp only [if_true, one_ne_zero, if_false]
    rw [ex_box (by decide) (by decide), ex_box (by decide) (by decide), ex_inter, area_box (by norm_num) (by norm_num)]
    norm_num
  have hsafe := fun i hi j hj => (⟨(ap_pairs (rnd := nearest 64) i hi j hj).1, (ap_cells i hi).1, (ap_cells i hi).2.1, (ap_pairs i hi j hj).2,
      by rw [(ap_cells i hi).2.2]; exact ap_big⟩ : SafeCells _ _ _ _ _ _ _)
  obtain ⟨o', h⟩ := C111_exists (ap_solves ap_gels) ap_fine flSort flSort_ok (3, 2) (3, 2) (0, 0)
    (flList apDx) (flList apDy) (flList apSx) (flList apSy) (by decide) (by decide) (by simp [flList, apDx]) (by simp [flList, apDy])
    (by simp [flList, apSx]) (by simp [flList, apSy]) hsafe (by decide) (fun i hi j hj => by
      by_cases hij : i = 1 ∨ j = 0
      · exact Or.inr (ap_apart i hi j hj hij)
      · rw [hcount] at hi hj
        obtain rfl : i = 0 := by omega
        obtain rfl : j = 1 := by omega
        exact Or.inl hmeet)
    { src := none, dst := none, weights := [], it := none, it2 := none }
  have hlist := (C111_listed (ap_solves ap_gels) ap_fine flSort flSort_ok (3, 2) (3, 2) (0, 0)
    (flList apDx) (flList apDy) (flList apSx) (flList apSy) (by decide) (by decide) (by simp [flList, apDx]) (by simp [flList, apDy])
    (by simp [flList, apSx]) (by simp [flList, apSy]) hsafe (by decide) _ o' rfl h).2.2 0 (by decide) 1 (by decide) hmeet.ne'
  obtain ⟨f, f', e, e', hff⟩ := C160_apart (nearGels (nearest 64)) flSort .keptBuffer (3, 2) (3, 2) (0, 0)
    (flList apDx) (flList apDy) (flList apSx) (flList apSy) (by decide) (by decide) (by simp [flList, apDx]) (by simp [flList, apDy])
    (by simp [flList, apSx]) (by simp [flList, apSy]) _ o' rfl h [⟨1⟩, ⟨2⟩] [⟨100⟩, ⟨2⟩] [⟨7⟩, ⟨8⟩] (by simp [hcount]) (by simp [hcount]) (by simp [hcount])
  refine ⟨o', f, f', h, hlist, e, e', ((hff 1 (by decide)).1 fun j hj => ap_apart 1 (by decide) j hj (Or.inl rfl)).2, (hff 0 (by decide)).2 fun j hj => ?_⟩
  rw [hcount] at hj
  interval_cases j
  · exact Or.inl (ap_apart 0 (by decide) 0 (by decide) (Or.inr rfl))
  · exact Or.inr rfl

end Sg.Props
