import Verif.Spec.Cells
import Verif.Proof.ConserveTable
import Verif.Proof.QuadIntersectExact
import Verif.Props.Triangulate
import Verif.Props.QuadIntersect
/- Weights in exact arithmetic. -/
namespace Sg.Conserve
open Sg.LinearSolve Sg.Triangulate Sg.QuadIntersect Sg.Spec Sg.Plane Sg.Props MeasureTheory

/-! ### Crossings depend on the edges only -/

def IsX (dp sp : Nat → P2) (key : EdgeKey) (p : P2) : Prop :=
  (dp key.1.2 - dp key.1.1).1 * (sp key.2.2 - sp key.2.1).2 - (dp key.1.2 - dp key.1.1).2 * (sp key.2.2 - sp key.2.1).1 ≠ 0 ∧
  p ∈ openSegment ℝ (dp key.1.1) (dp key.1.2) ∧ p ∈ openSegment ℝ (sp key.2.1) (sp key.2.2)

theorem isX_sort (dp sp : Nat → P2) (a b c d : Nat) (p : P2) :
    IsX dp sp (sortPair a b, sortPair c d) p ↔
      (dp b - dp a).1 * (sp d - sp c).2 - (dp b - dp a).2 * (sp d - sp c).1 ≠ 0 ∧
      p ∈ openSegment ℝ (dp a) (dp b) ∧ p ∈ openSegment ℝ (sp c) (sp d) := by
  unfold IsX sortPair
  split <;> split
  · simp only [Prod.fst_sub, Prod.snd_sub, openSegment_symm ℝ (dp b), openSegment_symm ℝ (sp d)]
    refine and_congr_left' (not_congr ?_)
    constructor <;> intro h <;> linarith
  · simp only [Prod.fst_sub, Prod.snd_sub, openSegment_symm ℝ (dp b)]
    refine and_congr_left' (not_congr ?_)
    constructor <;> intro h <;> linarith
  · simp only [Prod.fst_sub, Prod.snd_sub, openSegment_symm ℝ (sp d)]
    refine and_congr_left' (not_congr ?_)
    constructor <;> intro h <;> linarith
  · rfl

open Classical in
noncomputable def crossingOf (dp sp : Nat → P2) (key : EdgeKey) : Option P2 :=
  if h : ∃ p, IsX dp sp key p then some h.choose else none

theorem crossingOf_eq {dp sp : Nat → P2} {key : EdgeKey} {e : Option P2} (h : ∀ p, e = some p ↔ IsX dp sp key p) :
    crossingOf dp sp key = e := by
  unfold crossingOf
  split
  · rename_i hex
    exact ((h _).mpr hex.choose_spec).symm
  · rename_i hex
    cases e with
    | none => rfl
    | some p => exact absurd ⟨p, (h p).mp rfl⟩ hex

theorem edgesBy {g : Gels ℝ} (hg : GelsContract g) {dst src : Grid ℝ} {dp sp : Nat → P2}
    (hc : ∀ i < dst.numCells, ∀ j < src.numCells, ClearPair (dst.cellQuad dp i) (src.cellQuad sp j)) :
    EdgesBy g dst src dp sp (crossingOf dp sp) := by
  intro i hi j hj k l
  apply crossingOf_eq
  intro p
  rw [isX_sort]
  exact edgeX_clear hg ((hc i hi j hj).edges k l)

/-! ### One pair of cells -/

theorem ptsOf_pairPoints {g : Gels ℝ} (hg : GelsContract g) {d s : Quad ℝ} (hc : CleanCells d s) :
    ptsOf (pairPoints g d s) = cornerPoints d s := by
  rw [← collected_eq hg hc.dst hc.src hc.clear]
  ext p
  exact mem_pairPoints

theorem hull_pairPoints {g : Gels ℝ} (hg : GelsContract g) {d s : Quad ℝ} (hc : CleanCells d s) :
    convexHull ℝ (ptsOf (pairPoints g d s)) = quadRegion d ∩ quadRegion s := by
  rw [ptsOf_pairPoints hg hc]
  exact hull_corner hc.dst hc.src (corner_finite hg hc.dst hc.src hc.clear)

theorem pair_area {g : Gels ℝ} (hg : GelsContract g) {d s : Quad ℝ} (hc : CleanCells d s) {mode : Mode}
    {sort : List P2 → List P2} (hsort : ∀ l, IsStdSort l (sort l)) {a : ℝ}
    (h : hullArea mode (sort (pairPoints g d s)) = .ok a) : area (quadRegion d ∩ quadRegion s) = a := by
  obtain ⟨h0, hv⟩ := C45_hull_area_returned mode (pairPoints g d s) _ (hsort _)
    (by rw [ptsOf_pairPoints hg hc]; exact hc.points)
    (by rw [ptsOf_pairPoints hg hc]; exact corner_convexPosition hc.dst hc.src) a h
  rw [hull_pairPoints hg hc] at hv
  rw [area, hv, ENNReal.toReal_ofReal h0]

theorem pair_small {g : Gels ℝ} (hg : GelsContract g) {d s : Quad ℝ} (hc : CleanCells d s) {sort : List P2 → List P2}
    (hsort : ∀ l, IsStdSort l (sort l)) (h : ¬ 3 ≤ (pairPoints g d s).length) : area (quadRegion d ∩ quadRegion s) = 0 :=
  pair_area hg hc hsort (mode := .standard) (C49_degenerate .standard _ _ (hsort _) (Or.inl (by omega)))

theorem pair_boxes {d s : Quad ℝ} (h : boxesOverlap d s = false) : area (quadRegion d ∩ quadRegion s) = 0 := by
  have : quadRegion d ∩ quadRegion s = ∅ := by
    by_contra hne
    obtain ⟨p, h1, h2⟩ := Set.nonempty_iff_ne_empty.mpr hne
    have := C50_box_keeps_overlaps Isect.new d s p h1 h2
    have e : boxesOverlap d s = true := by injection this
    rw [h] at e; cases e
  rw [this, area, measure_empty]; rfl

/-! ### A convex quadrilateral alone -/

theorem range_list (d : Quad ℝ) : ptsOf [d 0, d 1, d 2, d 3] = Set.range d := by
  ext p
  show p ∈ [d 0, d 1, d 2, d 3] ↔ _
  simp only [List.mem_cons, List.not_mem_nil, or_false, Set.mem_range, Fin.exists_fin_succ, IsEmpty.exists_iff]
  constructor
  · rintro (rfl | rfl | rfl | rfl)
    · exact Or.inl rfl
    · exact Or.inr (Or.inl rfl)
    · exact Or.inr (Or.inr (Or.inl rfl))
    · exact Or.inr (Or.inr (Or.inr rfl))
  · rintro (h | h | h | h)
    · exact Or.inl h.symm
    · exact Or.inr (Or.inl h.symm)
    · exact Or.inr (Or.inr (Or.inl h.symm))
    · exact Or.inr (Or.inr (Or.inr h.symm))

theorem quad_convexPosition {d : Quad ℝ} (h : ConvexQuad d) : ConvexPosition (Set.range d) := by
  rintro _ ⟨i, rfl⟩ hint
  exact edge_not_interior h (left_mem_segment ℝ _ _) hint

theorem quad_not_collinear {d : Quad ℝ} (h : ConvexQuad d) : ¬ Collinear2 (Set.range d) := by
  intro hc
  obtain ⟨-, i, hi⟩ := h
  exact hi (hc (d i) ⟨i, rfl⟩ (d (i + 1)) ⟨i + 1, rfl⟩ (d (i + 2)) ⟨i + 2, rfl⟩)

/-- With the buffer kept the area of the cell is found, also if nodes coincide. -/
theorem cell_area {sort : List P2 → List P2} (hsort : ∀ l, IsStdSort l (sort l)) {d : Quad ℝ}
    (h : ConvexQuad d) (ht : TolClean (Set.range d)) :
    hullArea .keptBuffer (sort [d 0, d 1, d 2, d 3]) = .ok (area (quadRegion d)) := by
  obtain ⟨a, e, h0, hv⟩ := C45_hull_area .keptBuffer [d 0, d 1, d 2, d 3] _ (hsort _) (by rw [range_list]; exact ht)
    (by rw [range_list]; exact quad_convexPosition h) (by rw [range_list]; exact quad_not_collinear h) (Or.inl rfl)
  rw [range_list] at hv
  rw [e, area, quadRegion, hv, ENNReal.toReal_ofReal h0]

theorem cell_area_returned {mode : Mode} {sort : List P2 → List P2} (hsort : ∀ l, IsStdSort l (sort l)) {d : Quad ℝ}
    (h : ConvexQuad d) (ht : TolClean (Set.range d)) {a : ℝ} (ha : hullArea mode (sort [d 0, d 1, d 2, d 3]) = .ok a) :
    a = area (quadRegion d) := by
  obtain ⟨h0, hv⟩ := C45_hull_area_returned mode [d 0, d 1, d 2, d 3] _ (hsort _) (by rw [range_list]; exact ht)
    (by rw [range_list]; exact quad_convexPosition h) a ha
  rw [range_list] at hv
  rw [area, quadRegion, hv, ENNReal.toReal_ofReal h0]

theorem area_pos {d : Quad ℝ} (h : ConvexQuad d) : 0 < area (quadRegion d) := by
  have hpos : 0 < volume (quadRegion d) := by
    rcases some_tri h with h1 | h1
    · refine lt_of_lt_of_le ?_ (measure_mono (tri_sub_region d 0 1 3))
      rw [volume_tri]
      exact ENNReal.ofReal_pos.mpr (by positivity)
    · refine lt_of_lt_of_le ?_ (measure_mono (tri_sub_region d 2 3 1))
      rw [volume_tri]
      exact ENNReal.ofReal_pos.mpr (by positivity)
  exact ENNReal.toReal_pos hpos.ne' (isCompact_region d).measure_lt_top.ne

/-! ### The table -/

/-- What is to be said of the weights of a destination cell: source cells in increasing order, each with the fraction it
covers, and no area where there is no weight. -/
structure CellOk (d : Quad ℝ) (s : Nat → Quad ℝ) (n : Nat) (l : List (Nat × ℝ)) : Prop where
  sorted : l.Pairwise fun a b => a.1 < b.1
  lt : ∀ e ∈ l, e.1 < n
  weight : ∀ e ∈ l, e.2 = overlapFraction d (s e.1)
  none : ∀ j < n, (∀ w, (j, w) ∉ l) → area (quadRegion d ∩ quadRegion (s j)) = 0

theorem CellOk.lookup {d : Quad ℝ} {s : Nat → Quad ℝ} {n : Nat} {l : List (Nat × ℝ)} (h : CellOk d s n l) {j : Nat}
    (hj : j < n) : (l.lookup j).getD 0 = overlapFraction d (s j) := by
  cases hl : l.lookup j with
  | some w =>
    obtain ⟨l1, l2, rfl, -⟩ := List.lookup_eq_some_iff.mp hl
    exact h.weight (j, w) (by simp)
  | none =>
    have : ∀ w, (j, w) ∉ l := by
      intro w hw
      have := List.lookup_eq_none_iff.mp hl (j, w) hw
      simp at this
    show 0 = _
    rw [overlapFraction, h.none j hj this, zero_div]

section table
set_option linter.unusedSectionVars false
variable {g : Gels ℝ} (hg : GelsContract g) {dst src : Grid ℝ} {dp sp : Nat → P2} (hd : dst.Has dp) (hs : src.Has sp)
  {sort : List P2 → List P2} (hsort : ∀ l, IsStdSort l (sort l)) {mode : Mode}
  (hc : ∀ i < dst.numCells, ∀ j < src.numCells, CleanCells (dst.cellQuad dp i) (src.cellQuad sp j))
include hg hd hs hsort hc

theorem scratchCell_spec {i : Nat} (hi : i < dst.numCells) (hn : 0 < src.numCells) {l : List (Nat × ℝ)}
    (h : scratchCell g sort mode src (dst.cellQuad dp i) = .ok l) :
    CellOk (dst.cellQuad dp i) (src.cellQuad sp) src.numCells l := by
  unfold scratchCell at h
  cases hda : hullArea mode (sort [dst.cellQuad dp i 0, dst.cellQuad dp i 1, dst.cellQuad dp i 2, dst.cellQuad dp i 3]) with
  | error e => rw [hda] at h; cases h
  | ok da =>
  rw [hda, cell_area_returned hsort (hc i hi 0 hn).dst (hc i hi 0 hn).dstPoints hda] at h
  simp only [bind, Except.bind] at h
  refine forN_inv_ok (fun k l => CellOk (dst.cellQuad dp i) (src.cellQuad sp) k l) _ _ _ _
    ⟨List.Pairwise.nil, by intro e he; (cases he), by intro e he; (cases he), by intro j hj; omega⟩ ?_ h
  intro j l l' hj hl h
  have hcc := hc i hi j hj
  -- a round without a new entry
  have keep : area (quadRegion (dst.cellQuad dp i) ∩ quadRegion (src.cellQuad sp j)) = 0 →
      CellOk (dst.cellQuad dp i) (src.cellQuad sp) (j + 1) l := by
    intro h0
    refine ⟨hl.sorted, fun e he => (hl.lt e he).trans (Nat.lt_succ_self _), hl.weight, ?_⟩
    intro j' hj' hno
    rcases Nat.lt_succ_iff_lt_or_eq.mp hj' with h' | rfl
    · exact hl.none j' h' hno
    · exact h0
  rw [src.quadCoord_ok sp hs hj] at h
  simp only at h
  cases hb : boxesOverlap (dst.cellQuad dp i) (src.cellQuad sp j) with
  | false =>
    rw [hb] at h
    cases h
    exact keep (pair_boxes hb)
  | true =>
    rw [hb, scratchPoints_ok g (keepsSizes hg)] at h
    simp only [if_true] at h
    split at h
    · cases ha : hullArea mode (sort (pairPoints g (dst.cellQuad dp i) (src.cellQuad sp j))) with
      | error e => rw [ha] at h; cases h
      | ok a =>
        rw [ha] at h
        cases h
        have hv := pair_area hg hcc hsort ha
        refine ⟨?_, ?_, ?_, ?_⟩
        · refine List.pairwise_append.mpr ⟨hl.sorted, by simp, ?_⟩
          intro e he e' he'
          rw [List.mem_singleton] at he'
          subst he'
          exact hl.lt e he
        · intro e he
          rcases List.mem_append.mp he with he | he
          · exact (hl.lt e he).trans (Nat.lt_succ_self _)
          · rw [List.mem_singleton] at he; subst he; exact Nat.lt_succ_self _
        · intro e he
          rcases List.mem_append.mp he with he | he
          · exact hl.weight e he
          · rw [List.mem_singleton] at he; subst he
            simp only [overlapFraction, hv]
        · intro j' hj' hno
          rcases Nat.lt_succ_iff_lt_or_eq.mp hj' with h' | rfl
          · exact hl.none j' h' fun w hw => hno w (List.mem_append_left _ hw)
          · exact absurd (List.mem_append_right _ (List.mem_singleton.mpr rfl)) (hno _)
    · rename_i h3
      cases h
      exact keep (pair_small hg hcc hsort h3)

/-- What is to be said of the table. -/
structure TableOk (d s : Nat → Quad ℝ) (m n : Nat) (t : List (Nat × List (Nat × ℝ))) : Prop where
  sorted : t.Pairwise fun a b => a.1 < b.1
  lt : ∀ e ∈ t, e.1 < m
  nonempty : ∀ e ∈ t, e.2 ≠ []
  cell : ∀ e ∈ t, CellOk (d e.1) s n e.2
  none : ∀ i < m, (∀ l, (i, l) ∉ t) → CellOk (d i) s n []

omit hg hd hs hsort hc in
theorem TableOk.weightOf {d s : Nat → Quad ℝ} {m n : Nat} {t : List (Nat × List (Nat × ℝ))} (h : TableOk d s m n t)
    {i j : Nat} (hi : i < m) (hj : j < n) : weightOf t i j = overlapFraction (d i) (s j) := by
  unfold Spec.weightOf
  cases hl : t.lookup i with
  | some l =>
    obtain ⟨l1, l2, rfl, -⟩ := List.lookup_eq_some_iff.mp hl
    exact (h.cell (i, l) (by simp)).lookup hj
  | none =>
    have : ∀ w, (i, w) ∉ t := by
      intro w hw
      have := List.lookup_eq_none_iff.mp hl (i, w) hw
      simp at this
    exact (h.none i hi this).lookup hj

theorem scratchTable_spec (hn : 0 < src.numCells) {t : List (Nat × List (Nat × ℝ))}
    (h : scratchTable g sort mode src dst = .ok t) :
    TableOk (dst.cellQuad dp) (src.cellQuad sp) dst.numCells src.numCells t := by
  unfold scratchTable at h
  refine forN_inv_ok (fun k t => TableOk (dst.cellQuad dp) (src.cellQuad sp) k src.numCells t) _ _ _ _
    ⟨List.Pairwise.nil, by intro e he; (cases he), by intro e he; (cases he), by intro e he; (cases he),
      by intro j hj; omega⟩ ?_ h
  intro i t t' hi ht h
  rw [dst.quadCoord_ok dp hd hi] at h
  simp only [bind, Except.bind] at h
  cases hl : scratchCell g sort mode src (dst.cellQuad dp i) with
  | error e => rw [hl] at h; cases h
  | ok l =>
    rw [hl] at h
    have hcell := scratchCell_spec hg hd hs hsort hc hi hn hl
    simp only [pure, Except.pure] at h
    split at h
    · rename_i hnil
      cases h
      subst hnil
      refine ⟨ht.sorted, fun e he => (ht.lt e he).trans (Nat.lt_succ_self _), ht.nonempty, ht.cell, ?_⟩
      intro i' hi' hno
      rcases Nat.lt_succ_iff_lt_or_eq.mp hi' with h' | rfl
      · exact ht.none i' h' hno
      · exact hcell
    · rename_i hnil
      cases h
      refine ⟨?_, ?_, ?_, ?_, ?_⟩
      · refine List.pairwise_append.mpr ⟨ht.sorted, by simp, ?_⟩
        intro e he e' he'
        rw [List.mem_singleton] at he'
        subst he'
        exact ht.lt e he
      · intro e he
        rcases List.mem_append.mp he with he | he
        · exact (ht.lt e he).trans (Nat.lt_succ_self _)
        · rw [List.mem_singleton] at he; subst he; exact Nat.lt_succ_self _
      · intro e he
        rcases List.mem_append.mp he with he | he
        · exact ht.nonempty e he
        · rw [List.mem_singleton] at he; subst he; exact hnil
      · intro e he
        rcases List.mem_append.mp he with he | he
        · exact ht.cell e he
        · rw [List.mem_singleton] at he; subst he; exact hcell
      · intro i' hi' hno
        rcases Nat.lt_succ_iff_lt_or_eq.mp hi' with h' | rfl
        · exact ht.none i' h' fun w hw => hno w (List.mem_append_left _ hw)
        · exact absurd (List.mem_append_right _ (List.mem_singleton.mpr rfl)) (hno _)

/-- The table of an object without weights. -/
theorem computeWeights_spec (hn : 0 < src.numCells) (o o' : Interp ℝ) (h1 : o.dst = some dst) (h2 : o.src = some src)
    (h0 : o.weights = []) (h : o.computeWeights g sort mode = .ok o') :
    TableOk (dst.cellQuad dp) (src.cellQuad sp) dst.numCells src.numCells o'.weights := by
  rw [computeWeights_scratch (keepsSizes hg) hd hs (edgesBy hg fun i hi j hj => (hc i hi j hj).clear) sort mode o h1 h2] at h
  cases ht : scratchTable g sort mode src dst with
  | error e => rw [ht] at h; cases h
  | ok t =>
    rw [ht] at h
    have hT := scratchTable_spec hg hd hs hsort hc hn ht
    have he : o'.weights = t := by
      have : o' = { o with weights := t.foldl (fun t e => Table.insert t e.1 e.2) o.weights } := by
        injection h with h; exact h.symm
      rw [this, h0]
      show t.foldl (fun t e => Table.insert t e.1 e.2) [] = t
      rw [foldl_insert t [] (by simpa using hT.sorted)]
      rfl
    rw [he]
    exact hT

omit hd hs hsort hc in
theorem pair_safe {sort : List P2 → List P2} (hsort : ∀ l, IsStdSort l (sort l)) {d s : Quad ℝ} (hc : CleanCells d s)
    (hover : (interior (quadRegion d ∩ quadRegion s)).Nonempty ∨ (quadRegion d ∩ quadRegion s).Subsingleton) :
    ∃ a, hullArea .keptBuffer (sort (pairPoints g d s)) = .ok a := by
  rcases hover with h | h
  · have hnc : ¬ Collinear2 (ptsOf (pairPoints g d s)) := by
      intro hcol
      have hpos : 0 < volume (quadRegion d ∩ quadRegion s) :=
        lt_of_lt_of_le (isOpen_interior.measure_pos volume h) (measure_mono interior_subset)
      rw [← hull_pairPoints hg hc] at hpos h
      have : ∃ p ∈ ptsOf (pairPoints g d s), ∃ q ∈ ptsOf (pairPoints g d s), p ≠ q := by
        by_contra hno
        push Not at hno
        have hsub : (ptsOf (pairPoints g d s)).Subsingleton := fun p hp q hq => hno p hp q hq
        rcases hsub.eq_empty_or_singleton with he | ⟨p, he⟩
        · rw [he] at hpos; simp at hpos
        · rw [he] at hpos; simp at hpos
      obtain ⟨p, hp, q, hq, hpq⟩ := this
      have h0 := area_zero_line hpq (fun x hx => hcol p hp q hq x hx)
      rw [h0] at hpos
      exact lt_irrefl _ hpos
    obtain ⟨a, e, -⟩ := C45_hull_area .keptBuffer (pairPoints g d s) _ (hsort _)
      (by rw [ptsOf_pairPoints hg hc]; exact hc.points)
      (by rw [ptsOf_pairPoints hg hc]; exact corner_convexPosition hc.dst hc.src) hnc (Or.inl rfl)
    exact ⟨a, e⟩
  · refine ⟨0, C49_degenerate .keptBuffer _ _ (hsort _) (Or.inr ?_)⟩
    rw [← hull_pairPoints hg hc] at h
    intro p hp q hq
    exact h (subset_convexHull ℝ _ hp) (subset_convexHull ℝ _ hq)

theorem scratchTable_safe
    (hover : ∀ i < dst.numCells, ∀ j < src.numCells,
      (interior (quadRegion (dst.cellQuad dp i) ∩ quadRegion (src.cellQuad sp j))).Nonempty ∨
      (quadRegion (dst.cellQuad dp i) ∩ quadRegion (src.cellQuad sp j)).Subsingleton) (hn : 0 < src.numCells) :
    ∃ t, scratchTable g sort .keptBuffer src dst = .ok t := by
  unfold scratchTable
  refine (forN_inv (fun _ _ => True) _ _ _ trivial ?_).imp fun _ h => h.1
  intro i t hi _
  rw [dst.quadCoord_ok dp hd hi]
  simp only [bind, Except.bind]
  have : ∃ l, scratchCell g sort .keptBuffer src (dst.cellQuad dp i) = .ok l := by
    unfold scratchCell
    rw [cell_area hsort (hc i hi 0 hn).dst (hc i hi 0 hn).dstPoints]
    simp only [bind, Except.bind]
    refine (forN_inv (fun _ _ => True) _ _ _ trivial ?_).imp fun _ h => h.1
    intro j l hj _
    rw [src.quadCoord_ok sp hs hj]
    simp only
    split
    · rw [scratchPoints_ok g (keepsSizes hg)]
      simp only
      split
      · obtain ⟨a, ha⟩ := pair_safe hg hsort (hc i hi j hj) (hover i hi j hj)
        rw [ha]
        exact ⟨_, rfl, trivial⟩
      · exact ⟨_, rfl, trivial⟩
    · exact ⟨_, rfl, trivial⟩
  obtain ⟨l, hl⟩ := this
  rw [hl]
  exact ⟨_, rfl, trivial⟩

end table
end Sg.Conserve
