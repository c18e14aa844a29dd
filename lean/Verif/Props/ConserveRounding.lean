import Verif.Proof.ConserveRounded
import Verif.Props.ConserveTotals
import Verif.Props.ConserveExamples
import Verif.Props.Rounding
/-
Property C111: conservative interpolation in rounded arithmetic with a backward stable solver.  The model of the class is used at
`Fl rnd`.
-/
namespace Sg.Props
open Sg Sg.LinearSolve Sg.Triangulate Sg.QuadIntersect Sg.Conserve Sg.Spec Sg.Plane MeasureTheory

variable {rnd : ℝ → ℝ}

theorem flVals_getD (l : List (Fl rnd)) (k : Nat) : (flVals l).getD k 0 = (l.getD k 0).val := by
  unfold flVals
  rw [List.getD_eq_getElem?_getD, List.getD_eq_getElem?_getD, List.getElem?_map]
  cases l[k]? <;> rfl

theorem valQuad_gridCell (dims : Nat × Nat) (x y : List (Fl rnd)) (i : Nat) :
    valQuad (gridCell dims x y i) = gridCell dims (flVals x) (flVals y) i := by
  funext k
  fin_cases k <;> simp only [valQuad, valPt, gridCell, gridCellAt, gridNode, flVals_getD] <;> rfl

theorem apart_boxes {d s : Quad ℝ} (h : BoxesApart d s) : boxesOverlap d s = false := by
  by_contra hb
  rw [Bool.not_eq_false] at hb
  unfold boxesOverlap at hb
  rw [Bool.and_eq_true, axisOverlap_iff, axisOverlap_iff] at hb
  obtain ⟨⟨x, ⟨i1, a1⟩, ⟨i2, a2⟩, ⟨i3, a3⟩, i4, a4⟩, y, ⟨j1, b1⟩, ⟨j2, b2⟩, ⟨j3, b3⟩, j4, b4⟩ := hb
  rcases h with h | h | h | h
  · have := h i2 i3; linarith
  · have := h i1 i4; linarith
  · have := h j2 j3; linarith
  · have := h j1 j4; linarith

/-- Parts of the cells of a grid that covers the cell. -/
theorem fractions_sum_one {d : Quad ℝ} (hpos : 0 < area (quadRegion d)) (sdims : Nat × Nat) (sx sy : List ℝ)
    (hcov : quadRegion d ⊆ gridRegion sdims sx sy) (hno : NoOverlap sdims sx sy) :
    ∑ j ∈ Finset.range (cellCount sdims), overlapFraction d (gridCell sdims sx sy j) = 1 := by
  unfold overlapFraction
  rw [← Finset.sum_div, ← area_parts (isCompact_region _) (fun j => quadRegion (gridCell sdims sx sy j))
    (fun j => isCompact_region _) _ hno]
  have : quadRegion d ∩ (⋃ j ∈ Finset.range (cellCount sdims), quadRegion (gridCell sdims sx sy j)) = quadRegion d :=
    Set.inter_eq_left.mpr hcov
  rw [this, div_self hpos.ne']

theorem dotError_mono {u : ℝ} (hu : 0 ≤ u) {m n : Nat} (hmn : m ≤ n) {A B : ℝ} (hA : 0 ≤ A) (hAB : A ≤ B) : dotError u 0 m A ≤ dotError u 0 n B := by
  unfold dotError
  have h1 : (1 + u) ^ (m + 1) ≤ (1 + u) ^ (n + 1) := pow_le_pow_right₀ (by linarith) (by omega)
  have h2 : (1 : ℝ) ≤ (1 + u) ^ (m + 1) := one_le_pow₀ (by linarith)
  have := mul_le_mul (show (1 + u) ^ (m + 1) - 1 ≤ (1 + u) ^ (n + 1) - 1 by linarith) hAB hA (by linarith)
  linarith

theorem sorted_length_le {α : Type} {l : List (Nat × α)} {n : Nat} (hs : l.Pairwise fun a b => a.1 < b.1) (hl : ∀ e ∈ l, e.1 < n) : l.length ≤ n := by
  have hnd : (l.map Prod.fst).Nodup := by
    rw [List.Nodup, List.pairwise_map]
    exact hs.imp fun h => Nat.ne_of_lt h
  have := List.subperm_of_subset hnd (l₂ := List.range n) (by
    intro k hk
    obtain ⟨e, he, rfl⟩ := List.mem_map.mp hk
    exact List.mem_range.mpr (hl e he))
  simpa using this.length_le

/-- Sums over a sorted list are sums over all numbers. -/
theorem sum_sorted (n : Nat) (l : List (Nat × Fl rnd)) (hs : l.Pairwise fun a b => a.1 < b.1) (hl : ∀ e ∈ l, e.1 < n) (f : Nat → ℝ → ℝ)
    (h0 : ∀ j, f j 0 = 0) :
    (l.map fun p => f p.1 p.2.val).sum = ∑ j ∈ Finset.range n, f j ((l.lookup j).getD 0).val := by
  induction l with
  | nil => simp [Fl.zero_val, h0]
  | cons e l ih =>
    rw [List.pairwise_cons] at hs
    have hen : e.1 < n := hl e (by simp)
    have hsplit : ∀ j ∈ Finset.range n, f j ((List.lookup j (e :: l)).getD 0).val =
        (if j = e.1 then f e.1 e.2.val else 0) + f j ((l.lookup j).getD 0).val := by
      intro j _
      by_cases hj : j = e.1
      · subst hj
        have : l.lookup e.1 = none := by
          rw [List.lookup_eq_none_iff]
          intro p hp
          have := hs.1 p hp
          simp; omega
        simp [List.lookup, this, Fl.zero_val, h0]
      · have : (j == e.1) = false := by simpa using hj
        rw [List.lookup_cons, this, if_neg hj, zero_add]
    rw [Finset.sum_congr rfl hsplit, Finset.sum_add_distrib, ← ih hs.2 fun p hp => hl p (by simp [hp])]
    simp [Finset.sum_ite_eq', hen]

section rounded
variable {g : Gels (Fl rnd)} {u β Δ L R : ℝ} (hf : SolvesFinely rnd g u β Δ) (hfine : FineBy rnd u 0 (crossError u β Δ L R) L)
  (sort : List (Pt (Fl rnd)) → List (Pt (Fl rnd))) (hsort : ∀ l, IsStdSort l (sort l))
  (ddims sdims per : Nat × Nat) (dx dy sx sy : List (Fl rnd))
  (hd : 1 ≤ ddims.1 ∧ 1 ≤ ddims.2) (hs : 1 ≤ sdims.1 ∧ 1 ≤ sdims.2)
  (hdx : ddims.1 * ddims.2 ≤ dx.length) (hdy : ddims.1 * ddims.2 ≤ dy.length)
  (hsx : sdims.1 * sdims.2 ≤ sx.length) (hsy : sdims.1 * sdims.2 ≤ sy.length)
  (hc : ∀ i < cellCount ddims, ∀ j < cellCount sdims,
    SafeCells u β Δ L R (gridCell ddims (flVals dx) (flVals dy) i) (gridCell sdims (flVals sx) (flVals sy) j))
include hf hfine hsort hd hs hdx hdy hsx hsy hc

theorem setAndCompute_near (hn : 0 < cellCount sdims) (o o' : Interp (Fl rnd)) (h0 : o.weights = [])
    (h : setAndCompute g sort .keptBuffer o ddims dx dy sdims per sx sy = .ok o') :
    TableNear (fun i => cellError u β Δ L R (gridCell ddims (flVals dx) (flVals dy) i)) (gridCell ddims (flVals dx) (flVals dy))
      (gridCell sdims (flVals sx) (flVals sy)) (cellCount ddims) (cellCount sdims) o'.weights := by
  obtain ⟨dst, src, -, -, h1, h2, c1, c2, q1, q2, e⟩ := setAndCompute_eq g sort .keptBuffer o ddims dx dy sdims per sx sy hd hs hdx
    hdy hsx hsy
  rw [e] at h
  have e1 : exactCell dst (ptAt dx dy) = gridCell ddims (flVals dx) (flVals dy) := by
    funext i; rw [exactCell, q1, valQuad_gridCell]
  have e2 : exactCell src (ptAt sx sy) = gridCell sdims (flVals sx) (flVals sy) := by
    funext i; rw [exactCell, q2, valQuad_gridCell]
  rw [← e1, ← e2, ← c1, ← c2] at hc ⊢
  have := computeWeights_near hf hfine hsort h1 h2 hc (by rw [c2]; exact hn)
    { o with dst := some dst, src := some src } o' rfl rfl h0 h
  exact this

omit hsort hd hs hdx hdy hsx hsy in
theorem cellError_nonneg (hn : 0 < cellCount sdims) (i : Nat) (hi : i < cellCount ddims) :
    0 ≤ cellError u β Δ L R (gridCell ddims (flVals dx) (flVals dy) i) := by
  have hA := (hc i hi 0 hn).big
  have hu := hf.rounds.rel
  have hA0 := area_nonneg (quadRegion (gridCell ddims (flVals dx) (flVals dy) i))
  have hE : 0 ≤ overlapError u (crossError u β Δ L R) L (area (quadRegion (gridCell ddims (flVals dx) (flVals dy) i))) := by
    have := sumError_nonneg hu le_rfl hfine.near hfine.size
    unfold overlapError areaError
    positivity
  unfold cellError weightError
  have := div_nonneg (mul_nonneg zero_le_two hE) (sub_nonneg.mpr hA.le)
  positivity

/-- **C111** In rounded arithmetic the weight of every pair of cells is the fraction of the destination cell that the source cell
covers, within `cellError`, a crossing of two edges being computed once and reused. -/
theorem C111_weights (o o' : Interp (Fl rnd)) (h0 : o.weights = [])
    (h : setAndCompute g sort .keptBuffer o ddims dx dy sdims per sx sy = .ok o') (i : Nat) (hi : i < cellCount ddims) (j : Nat)
    (hj : j < cellCount sdims) :
    |(weightOf o'.weights i j).val - overlapFraction (gridCell ddims (flVals dx) (flVals dy) i) (gridCell sdims (flVals sx) (flVals sy) j)| ≤
      cellError u β Δ L R (gridCell ddims (flVals dx) (flVals dy) i) :=
  (setAndCompute_near hf hfine sort hsort ddims sdims per dx dy sx sy hd hs hdx hdy hsx hsy hc (by omega) o o' h0 h).weightOf
    (cellError_nonneg hf hfine ddims sdims dx dy sx sy hc (by omega) i hi) hi hj

/-- **C111** The table has cells of the grids only, each pair at most once, and no pair of cells with an area in common is missing. -/
theorem C111_listed (hn : 0 < cellCount sdims) (o o' : Interp (Fl rnd)) (h0 : o.weights = [])
    (h : setAndCompute g sort .keptBuffer o ddims dx dy sdims per sx sy = .ok o') :
    (triples o'.weights).Pairwise (fun a b => (a.1, a.2.1) ≠ (b.1, b.2.1)) ∧
    (∀ i j w, (i, j, w) ∈ triples o'.weights → i < cellCount ddims ∧ j < cellCount sdims) ∧
    ∀ i < cellCount ddims, ∀ j < cellCount sdims, area (quadRegion (gridCell ddims (flVals dx) (flVals dy) i) ∩
      quadRegion (gridCell sdims (flVals sx) (flVals sy) j)) ≠ 0 → ∃ w, (i, j, w) ∈ triples o'.weights := by
  have hT := setAndCompute_near hf hfine sort hsort ddims sdims per dx dy sx sy hd hs hdx hdy hsx hsy hc hn o o' h0 h
  refine ⟨?_, ?_, ?_⟩
  · unfold triples
    rw [List.pairwise_flatMap]
    constructor
    · intro e he
      rw [List.pairwise_map]
      refine (hT.cell e he).sorted.imp ?_
      intro a b hab heq
      have := congrArg Prod.snd heq
      dsimp only at this
      omega
    · refine hT.sorted.imp ?_
      intro a b hab x hx y hy heq
      obtain ⟨p, _, rfl⟩ := List.mem_map.mp hx
      obtain ⟨q, _, rfl⟩ := List.mem_map.mp hy
      have := congrArg Prod.fst heq
      dsimp only at this
      omega
  · intro i j w hm
    obtain ⟨e, he, hp⟩ := List.mem_flatMap.mp hm
    obtain ⟨p, hp', hpe⟩ := List.mem_map.mp hp
    cases hpe
    exact ⟨hT.lt e he, (hT.cell e he).lt p hp'⟩
  · intro i hi j hj hne
    by_contra hcon
    push Not at hcon
    apply hne
    by_cases hl : ∃ l, (i, l) ∈ o'.weights
    · obtain ⟨l, hl⟩ := hl
      refine (hT.cell (i, l) hl).none j hj fun w hw => hcon w ?_
      exact List.mem_flatMap.mpr ⟨(i, l), hl, List.mem_map.mpr ⟨(j, w), hw, rfl⟩⟩
    · push Not at hl
      exact (hT.none i hi hl).none j hj fun w hw => by cases hw

/-- **C111** Weights are returned if any two cells have a positive area in common or boxes that are apart. -/
theorem C111_exists (hn : 0 < cellCount sdims)
    (hover : ∀ i < cellCount ddims, ∀ j < cellCount sdims,
      0 < area (quadRegion (gridCell ddims (flVals dx) (flVals dy) i) ∩ quadRegion (gridCell sdims (flVals sx) (flVals sy) j)) ∨
      BoxesApart (gridCell ddims (flVals dx) (flVals dy) i) (gridCell sdims (flVals sx) (flVals sy) j))
    (o : Interp (Fl rnd)) : ∃ o', setAndCompute g sort .keptBuffer o ddims dx dy sdims per sx sy = .ok o' := by
  obtain ⟨dst, src, -, -, h1, h2, c1, c2, q1, q2, e⟩ := setAndCompute_eq g sort .keptBuffer o ddims dx dy sdims per sx sy hd hs hdx
    hdy hsx hsy
  rw [e]
  have e1 : exactCell dst (ptAt dx dy) = gridCell ddims (flVals dx) (flVals dy) := by
    funext i; rw [exactCell, q1, valQuad_gridCell]
  have e2 : exactCell src (ptAt sx sy) = gridCell sdims (flVals sx) (flVals sy) := by
    funext i; rw [exactCell, q2, valQuad_gridCell]
  rw [← e1, ← e2, ← c1, ← c2] at hc hover
  exact computeWeights_exists hf hfine hsort h1 h2 hc (by rw [c2]; exact hn)
    (fun i hi j hj => (hover i hi j hj).imp id apart_boxes) _ rfl rfl

/-- **C111** The weights of a destination cell that is covered by the source grid sum to 1, within the number of source cells times
`cellError`. -/
theorem C111_sum_one (o o' : Interp (Fl rnd)) (h0 : o.weights = [])
    (h : setAndCompute g sort .keptBuffer o ddims dx dy sdims per sx sy = .ok o') (i : Nat) (hi : i < cellCount ddims)
    (hcov : quadRegion (gridCell ddims (flVals dx) (flVals dy) i) ⊆ gridRegion sdims (flVals sx) (flVals sy))
    (hno : NoOverlap sdims (flVals sx) (flVals sy)) :
    |∑ j ∈ Finset.range (cellCount sdims), (weightOf o'.weights i j).val - 1| ≤
      cellCount sdims * cellError u β Δ L R (gridCell ddims (flVals dx) (flVals dy) i) := by
  have hn := cells_of_cover sdims (flVals sx) (flVals sy) _ hcov
  rw [← fractions_sum_one (area_pos (hc i hi 0 hn).safe.convex.1) sdims (flVals sx) (flVals sy) hcov hno, ← Finset.sum_sub_distrib]
  refine (Finset.abs_sum_le_sum_abs _ _).trans ?_
  refine (Finset.sum_le_card_nsmul _ _ _ fun j hj => C111_weights hf hfine sort hsort ddims sdims per dx dy sx sy hd hs hdx hdy hsx
    hsy hc o o' h0 h i hi j (Finset.mem_range.mp hj)).trans ?_
  rw [Finset.card_range, nsmul_eq_mul]

/-- **C111** Interpolated values: a destination cell that has an area in common with a source cell gets the sum of the covered
fractions times the source values, within `valueError`. -/
theorem C111_apply (hn : 0 < cellCount sdims) (o o' : Interp (Fl rnd)) (h0 : o.weights = [])
    (h : setAndCompute g sort .keptBuffer o ddims dx dy sdims per sx sy = .ok o')
    (srcData dstData : List (Fl rnd)) (hlen : cellCount sdims ≤ srcData.length) (hlen' : cellCount ddims ≤ dstData.length) :
    ∃ d', o'.apply srcData dstData = .ok d' ∧ d'.length = dstData.length ∧ ∀ i < cellCount ddims,
      (∃ j < cellCount sdims, area (quadRegion (gridCell ddims (flVals dx) (flVals dy) i) ∩
        quadRegion (gridCell sdims (flVals sx) (flVals sy) j)) ≠ 0) →
      |(d'.getD i 0).val - ∑ j ∈ Finset.range (cellCount sdims), overlapFraction (gridCell ddims (flVals dx) (flVals dy) i)
          (gridCell sdims (flVals sx) (flVals sy) j) * (srcData.getD j 0).val| ≤
        valueError u (cellError u β Δ L R (gridCell ddims (flVals dx) (flVals dy) i)) (cellCount sdims)
          (fun j => overlapFraction (gridCell ddims (flVals dx) (flVals dy) i) (gridCell sdims (flVals sx) (flVals sy) j))
          (fun j => (srcData.getD j 0).val) := by
  have hT := setAndCompute_near hf hfine sort hsort ddims sdims per dx dy sx sy hd hs hdx hdy hsx hsy hc hn o o' h0 h
  have hbound : ∀ e ∈ o'.weights, e.1 < dstData.length ∧ ∀ p ∈ e.2, p.1 < srcData.length := fun e he =>
    ⟨lt_of_lt_of_le (hT.lt e he) hlen', fun p hp => lt_of_lt_of_le ((hT.cell e he).lt p hp) hlen⟩
  obtain ⟨d', e, hv⟩ := C92_conserve hf.rounds o' srcData dstData hT.sorted hbound
  obtain ⟨d'', e', hl, -⟩ := Conserve.apply_ok o' srcData dstData hT.sorted hbound
  rw [e] at e'
  cases e'
  refine ⟨d', e, hl, ?_⟩
  rintro i hi ⟨j0, hj0, hne⟩
  have hε := cellError_nonneg hf hfine ddims sdims dx dy sx sy hc hn i hi
  have hw : ∀ j < cellCount sdims, _ := fun j hj => hT.weightOf hε hi hj
  obtain ⟨l, hm⟩ : ∃ l, (i, l) ∈ o'.weights := by
    by_contra hcon
    push Not at hcon
    exact hne ((hT.none i hi hcon).none j0 hj0 fun w hw => by cases hw)
  obtain ⟨v, hvi, hverr⟩ := hv i l hm
  have hc' := hT.cell (i, l) hm
  have hlk := lookup_sorted hT.sorted hm
  have hwl : ∀ j, weightOf o'.weights i j = (l.lookup j).getD 0 := fun j => by rw [weightOf, hlk]; rfl
  simp only [hwl] at hw
  rw [List.getD_eq_getElem?_getD, hvi, Option.getD_some]
  set ε := cellError u β Δ L R (gridCell ddims (flVals dx) (flVals dy) i)
  set f : Nat → ℝ := fun j => overlapFraction (gridCell ddims (flVals dx) (flVals dy) i) (gridCell sdims (flVals sx) (flVals sy) j)
  set n := cellCount sdims
  rw [sum_sorted n l hc'.sorted hc'.lt (fun j w => w * (srcData.getD j 0).val) (fun j => zero_mul _),
    sum_sorted n l hc'.sorted hc'.lt (fun j w => |w * (srcData.getD j 0).val|) (fun j => by simp)] at hverr
  have hA : ∑ j ∈ Finset.range n, |((l.lookup j).getD 0).val * (srcData.getD j 0).val| ≤
      ∑ j ∈ Finset.range n, (f j + ε) * |(srcData.getD j 0).val| := by
    refine Finset.sum_le_sum fun j hj => ?_
    rw [abs_mul]
    refine mul_le_mul_of_nonneg_right ?_ (abs_nonneg _)
    have h1 := hw j (Finset.mem_range.mp hj)
    have h2 : 0 ≤ f j := div_nonneg (area_nonneg _) (area_nonneg _)
    have h3 := abs_sub_abs_le_abs_sub ((l.lookup j).getD 0).val (f j)
    rw [abs_of_nonneg h2] at h3
    linarith
  have hD := dotError_mono hf.rounds.rel (sorted_length_le hc'.sorted hc'.lt) (Finset.sum_nonneg fun j _ => abs_nonneg _) hA
  have hS : |∑ j ∈ Finset.range n, ((l.lookup j).getD 0).val * (srcData.getD j 0).val - ∑ j ∈ Finset.range n, f j * (srcData.getD j 0).val| ≤
      ε * ∑ j ∈ Finset.range n, |(srcData.getD j 0).val| := by
    rw [← Finset.sum_sub_distrib, Finset.mul_sum]
    refine (Finset.abs_sum_le_sum_abs _ _).trans (Finset.sum_le_sum fun j hj => ?_)
    rw [← sub_mul, abs_mul]
    exact mul_le_mul_of_nonneg_right (hw j (Finset.mem_range.mp hj)) (abs_nonneg _)
  refine (abs_sub_le _ (∑ j ∈ Finset.range n, ((l.lookup j).getD 0).val * (srcData.getD j 0).val) _).trans ?_
  unfold valueError
  exact add_le_add (hverr.trans hD) hS

/-- **C111** Two grids of the same region: the sum of values times cell areas is the same after interpolation, up to the errors of the
values. -/
theorem C111_conserved (hn : 0 < cellCount sdims) (o o' : Interp (Fl rnd)) (h0 : o.weights = [])
    (h : setAndCompute g sort .keptBuffer o ddims dx dy sdims per sx sy = .ok o')
    (srcData dstData : List (Fl rnd)) (hlen : cellCount sdims ≤ srcData.length) (hlen' : cellCount ddims ≤ dstData.length)
    (hno : NoOverlap ddims (flVals dx) (flVals dy)) (hno' : NoOverlap sdims (flVals sx) (flVals sy))
    (hsame : gridRegion ddims (flVals dx) (flVals dy) = gridRegion sdims (flVals sx) (flVals sy)) :
    ∃ d', o'.apply srcData dstData = .ok d' ∧ d'.length = dstData.length ∧
      |∑ i ∈ Finset.range (cellCount ddims), area (quadRegion (gridCell ddims (flVals dx) (flVals dy) i)) * (d'.getD i 0).val -
        ∑ j ∈ Finset.range (cellCount sdims), area (quadRegion (gridCell sdims (flVals sx) (flVals sy) j)) * (srcData.getD j 0).val| ≤
      ∑ i ∈ Finset.range (cellCount ddims), area (quadRegion (gridCell ddims (flVals dx) (flVals dy) i)) *
        valueError u (cellError u β Δ L R (gridCell ddims (flVals dx) (flVals dy) i)) (cellCount sdims)
          (fun j => overlapFraction (gridCell ddims (flVals dx) (flVals dy) i) (gridCell sdims (flVals sx) (flVals sy) j))
          (fun j => (srcData.getD j 0).val) := by
  obtain ⟨d', e, hl, hv⟩ := C111_apply hf hfine sort hsort ddims sdims per dx dy sx sy hd hs hdx hdy hsx hsy hc hn o o' h0 h srcData
    dstData hlen hlen'
  refine ⟨d', e, hl, ?_⟩
  have hpos : ∀ i < cellCount ddims, 0 < area (quadRegion (gridCell ddims (flVals dx) (flVals dy) i)) := fun i hi =>
    area_pos (hc i hi 0 hn).safe.convex.1
  have hex : ∀ i < cellCount ddims, ∃ j < cellCount sdims, area (quadRegion (gridCell ddims (flVals dx) (flVals dy) i) ∩
      quadRegion (gridCell sdims (flVals sx) (flVals sy) j)) ≠ 0 := by
    intro i hi
    by_contra hz
    push Not at hz
    have hsum := fractions_sum_one (hpos i hi) sdims (flVals sx) (flVals sy) (by
      rw [← hsame]
      exact Set.subset_biUnion_of_mem (u := fun i => quadRegion (gridCell ddims (flVals dx) (flVals dy) i)) (Finset.mem_range.mpr hi)) hno'
    rw [Finset.sum_eq_zero fun j hj => by rw [overlapFraction, hz j (Finset.mem_range.mp hj), zero_div]] at hsum
    exact one_ne_zero hsum.symm
  have hexact : ∑ j ∈ Finset.range (cellCount sdims), area (quadRegion (gridCell sdims (flVals sx) (flVals sy) j)) * (srcData.getD j 0).val =
      ∑ i ∈ Finset.range (cellCount ddims), area (quadRegion (gridCell ddims (flVals dx) (flVals dy) i)) *
        ∑ j ∈ Finset.range (cellCount sdims), overlapFraction (gridCell ddims (flVals dx) (flVals dy) i)
          (gridCell sdims (flVals sx) (flVals sy) j) * (srcData.getD j 0).val := by
    have h1 : ∀ i ∈ Finset.range (cellCount ddims), area (quadRegion (gridCell ddims (flVals dx) (flVals dy) i)) *
        ∑ j ∈ Finset.range (cellCount sdims), overlapFraction (gridCell ddims (flVals dx) (flVals dy) i)
          (gridCell sdims (flVals sx) (flVals sy) j) * (srcData.getD j 0).val =
        ∑ j ∈ Finset.range (cellCount sdims), area (quadRegion (gridCell sdims (flVals sx) (flVals sy) j) ∩
          quadRegion (gridCell ddims (flVals dx) (flVals dy) i)) * (srcData.getD j 0).val := by
      intro i hi
      rw [Finset.mul_sum]
      refine Finset.sum_congr rfl fun j _ => ?_
      rw [overlapFraction, Set.inter_comm, ← mul_assoc, mul_div_cancel₀ _ (hpos i (Finset.mem_range.mp hi)).ne']
    rw [Finset.sum_congr rfl h1, Finset.sum_comm]
    refine Finset.sum_congr rfl fun j hj => ?_
    rw [← Finset.sum_mul, ← area_parts (isCompact_region _) (fun i => quadRegion (gridCell ddims (flVals dx) (flVals dy) i))
      (fun i => isCompact_region _) _ hno]
    have : quadRegion (gridCell sdims (flVals sx) (flVals sy) j) ∩ gridRegion ddims (flVals dx) (flVals dy) =
        quadRegion (gridCell sdims (flVals sx) (flVals sy) j) := by
      rw [hsame]
      exact Set.inter_eq_left.mpr (Set.subset_biUnion_of_mem (u := fun i => quadRegion (gridCell sdims (flVals sx) (flVals sy) i)) hj)
    rw [show (⋃ i ∈ Finset.range (cellCount ddims), quadRegion (gridCell ddims (flVals dx) (flVals dy) i)) =
      gridRegion ddims (flVals dx) (flVals dy) from rfl, this]
  rw [hexact, ← Finset.sum_sub_distrib]
  refine (Finset.abs_sum_le_sum_abs _ _).trans (Finset.sum_le_sum fun i hi => ?_)
  have hi' := Finset.mem_range.mp hi
  rw [← mul_sub, abs_mul, abs_of_pos (hpos i hi')]
  exact mul_le_mul_of_nonneg_left (hv i hi' (hex i hi')) (hpos i hi').le

end rounded

/-! ### Double precision -/

theorem cellError_double {A : ℝ} (hA : 1 / 1000 ≤ A) :
    overlapError (2 ^ (-(53 : ℤ))) (crossError (2 ^ (-(53 : ℤ))) (2 ^ (-(52 : ℤ))) (1 / 4) 2 16) 2 A < A ∧
    weightError (2 ^ (-(53 : ℤ)))
      (overlapError (2 ^ (-(53 : ℤ))) (crossError (2 ^ (-(53 : ℤ))) (2 ^ (-(52 : ℤ))) (1 / 4) 2 16) 2 A) A ≤ 3 / 10 ^ 11 / A + 1 / 10 ^ 13 := by
  have hE : overlapError (2 ^ (-(53 : ℤ))) (crossError (2 ^ (-(53 : ℤ))) (2 ^ (-(52 : ℤ))) (1 / 4) 2 16) 2 A ≤ 1 / 10 ^ 11 + 1 / 10 ^ 14 * A := by
    unfold overlapError areaError
    set k := sumError (2 ^ (-(53 : ℤ))) 0 (crossError (2 ^ (-(53 : ℤ))) (2 ^ (-(52 : ℤ))) (1 / 4) 2 16) 2 with hk
    have hk1 : k ≤ 5 / 10 ^ 13 := by rw [hk]; norm_num [crossError, solveError, sumError, prodError, diffError]
    have c2 : ((1 : ℝ) + 2 ^ (-(53 : ℤ))) ^ 36 ≤ 1001 / 1000 := by norm_num
    have h3 : ((36 : ℕ) : ℝ) * ((1 : ℝ) + 2 ^ (-(53 : ℤ))) ^ 36 * (k + 2 * 2 ^ (-(53 : ℤ)) * A + 0) ≤
        36 * (1001 / 1000) * (5 / 10 ^ 13 + 2 * 2 ^ (-(53 : ℤ)) * A) := by
      rw [add_zero]
      refine (mul_le_mul_of_nonneg_left (b := k + 2 * 2 ^ (-(53 : ℤ)) * A) (c := 5 / 10 ^ 13 + 2 * 2 ^ (-(53 : ℤ)) * A) (by linarith) (by positivity)).trans ?_
      refine mul_le_mul_of_nonneg_right ?_ (by positivity)
      push_cast
      linarith
    have h4 := mul_le_mul_of_nonneg_left h3 (show (0 : ℝ) ≤ (1 + 2 ^ (-(53 : ℤ))) / 2 by norm_num)
    norm_num at h4 ⊢
    linarith
  set E := overlapError (2 ^ (-(53 : ℤ))) (crossError (2 ^ (-(53 : ℤ))) (2 ^ (-(52 : ℤ))) (1 / 4) 2 16) 2 A
  have hA0 : 0 < A := by linarith
  have hEA : E ≤ 1 / 10 ^ 7 * A := by norm_num at hE ⊢; linarith
  refine ⟨by norm_num at hEA; linarith, ?_⟩
  unfold weightError
  have h1 : 2 * E / (A - E) ≤ 21 / 10 ^ 12 / A + 3 / 10 ^ 14 := by
    rw [div_le_iff₀ (by norm_num at hEA; linarith)]
    have h2 : (1 - 1 / 10 ^ 7) * A ≤ A - E := by linarith
    refine le_trans ?_ (mul_le_mul_of_nonneg_left h2 (by positivity))
    have : (21 / 10 ^ 12 / A + 3 / 10 ^ 14) * ((1 - 1 / 10 ^ 7) * A) = (1 - 1 / 10 ^ 7) * (21 / 10 ^ 12 + 3 / 10 ^ 14 * A) := by
      field_simp
    rw [this]
    norm_num at hE ⊢
    linarith
  have h5 := mul_le_mul_of_nonneg_left h1 (show (0 : ℝ) ≤ 1 + 2 ^ (-(53 : ℤ)) by norm_num)
  refine (add_le_add h5 le_rfl).trans ?_
  have h6 : 0 < A⁻¹ := by positivity
  rw [div_eq_mul_inv _ A, div_eq_mul_inv (3 / 10 ^ 11) A]
  norm_num
  nlinarith

/-- **C111** In double precision, with a solver that is backward stable with the constant 2^-52, cells of size 2 at most at coordinates up
to 16, of area `A` at least 1/1000: any computed weight is within `3e-11 / A + 1e-13` of the covered fraction. -/
theorem C111_double (g : Gels (Fl (nearest 53))) (hg : GelsStable g (2 ^ (-(52 : ℤ))))
    (sort : List (Pt (Fl (nearest 53))) → List (Pt (Fl (nearest 53)))) (hsort : ∀ l, IsStdSort l (sort l))
    (ddims sdims per : Nat × Nat) (dx dy sx sy : List (Fl (nearest 53)))
    (hd : 1 ≤ ddims.1 ∧ 1 ≤ ddims.2) (hs : 1 ≤ sdims.1 ∧ 1 ≤ sdims.2)
    (hdx : ddims.1 * ddims.2 ≤ dx.length) (hdy : ddims.1 * ddims.2 ≤ dy.length)
    (hsx : sdims.1 * sdims.2 ≤ sx.length) (hsy : sdims.1 * sdims.2 ≤ sy.length)
    (hcells : ∀ i < cellCount ddims, SizedBy 2 16 (gridCell ddims (flVals dx) (flVals dy) i) ∧
      TolClean2 (Set.range (gridCell ddims (flVals dx) (flVals dy) i)) ∧
      1 / 1000 ≤ area (quadRegion (gridCell ddims (flVals dx) (flVals dy) i)))
    (hpairs : ∀ i < cellCount ddims, ∀ j < cellCount sdims,
      SafePair (1 / 4) (gridCell ddims (flVals dx) (flVals dy) i) (gridCell sdims (flVals sx) (flVals sy) j) ∧
      TolClean2 (cornerPoints (gridCell ddims (flVals dx) (flVals dy) i) (gridCell sdims (flVals sx) (flVals sy) j)))
    (o o' : Interp (Fl (nearest 53))) (h0 : o.weights = [])
    (h : setAndCompute g sort .keptBuffer o ddims dx dy sdims per sx sy = .ok o') (i : Nat) (hi : i < cellCount ddims) (j : Nat)
    (hj : j < cellCount sdims) :
    |(weightOf o'.weights i j).val - overlapFraction (gridCell ddims (flVals dx) (flVals dy) i) (gridCell sdims (flVals sx) (flVals sy) j)| ≤
      3 / 10 ^ 11 / area (quadRegion (gridCell ddims (flVals dx) (flVals dy) i)) + 1 / 10 ^ 13 :=
  (C111_weights (solvesFinely_double hg) fineBy_cross sort hsort ddims sdims per dx dy sx sy hd hs hdx hdy hsx hsy
    (fun i hi j hj => ⟨(hpairs i hi j hj).1, (hcells i hi).1, (hcells i hi).2.1, (hpairs i hi j hj).2,
      (cellError_double (hcells i hi).2.2).1⟩) o o' h0 h i hi j hj).trans
    (cellError_double (hcells i hi).2.2).2

/-! ### A case meeting the hypotheses -/

/-- Sorting by computed distance from the computed center, ties in the order given. -/
noncomputable def flSort (l : List (Pt (Fl rnd))) : List (Pt (Fl rnd)) :=
  l.insertionSort fun p q => distanceSquareFromCenter (gravityCenter l) p ≤ distanceSquareFromCenter (gravityCenter l) q

theorem flSort_ok (l : List (Pt (Fl rnd))) : IsStdSort l (flSort l) := by
  refine ⟨List.perm_insertionSort _ _, ?_⟩
  have : List.Pairwise (fun p q => distanceSquareFromCenter (gravityCenter l) p ≤
      distanceSquareFromCenter (gravityCenter l) q) (flSort l) := by
    have : Std.Total fun p q : Pt (Fl rnd) => distanceSquareFromCenter (gravityCenter l) p ≤ distanceSquareFromCenter (gravityCenter l) q :=
      ⟨fun p q => le_total (α := ℝ) _ _⟩
    have : IsTrans (Pt (Fl rnd)) fun p q : Pt (Fl rnd) => distanceSquareFromCenter (gravityCenter l) p ≤ distanceSquareFromCenter (gravityCenter l) q :=
      ⟨fun p q r => le_trans (α := ℝ)⟩
    exact List.pairwise_insertionSort _ _
  refine this.imp ?_
  intro p q h
  exact not_lt (α := ℝ).mpr h

/-- The square [0,2] x [0,2] as two columns and as two rows. -/
noncomputable def flList (l : List ℤ) : List (Fl rnd) := l.map fun z => ⟨z⟩
def colX : List ℤ := [0, 0, 1, 1, 2, 2]
def colY : List ℤ := [0, 2, 0, 2, 0, 2]
def rowX : List ℤ := [0, 0, 0, 2, 2, 2]
def rowY : List ℤ := [0, 1, 2, 0, 1, 2]

theorem col_cell : ∀ i < cellCount (3, 2), gridCell (3, 2) (flVals (flList colX : List (Fl rnd))) (flVals (flList colY : List (Fl rnd))) i =
    zquad (if i = 0 then exZ 0 1 0 2 else exZ 1 2 0 2) := by
  intro i hi
  rcases (show i = 0 ∨ i = 1 by simp [cellCount] at hi; omega) with rfl | rfl <;>
  · funext k
    fin_cases k <;> simp [gridCell, gridCellAt, gridNode, flVals, flList, colX, colY, zquad, exZ]

theorem row_cell : ∀ i < cellCount (2, 3), gridCell (2, 3) (flVals (flList rowX : List (Fl rnd))) (flVals (flList rowY : List (Fl rnd))) i =
    zquad (if i = 0 then exZ 0 2 0 1 else exZ 0 2 1 2) := by
  intro i hi
  rcases (show i = 0 ∨ i = 1 by simp [cellCount] at hi; omega) with rfl | rfl <;>
  · funext k
    fin_cases k <;> simp [gridCell, gridCellAt, gridNode, flVals, flList, rowX, rowY, zquad, exZ]

theorem range_tolClean2 (z : Fin 4 → ℤ × ℤ) : TolClean2 (Set.range (zquad z)) := by
  have := tolClean2_int [z 0, z 1, z 2, z 3]
  rw [← range_list]
  exact this

theorem col_cells (i : Nat) (hi : i < cellCount (3, 2)) :
    SizedBy 2 16 (gridCell (3, 2) (flVals (flList colX : List (Fl rnd))) (flVals (flList colY : List (Fl rnd))) i) ∧
      TolClean2 (Set.range (gridCell (3, 2) (flVals (flList colX : List (Fl rnd))) (flVals (flList colY : List (Fl rnd))) i)) ∧
      area (quadRegion (gridCell (3, 2) (flVals (flList colX : List (Fl rnd))) (flVals (flList colY : List (Fl rnd))) i)) = 2 := by
  rw [col_cell i hi]
  refine ⟨?_, range_tolClean2 _, ?_⟩
  · split <;>
    · intro i j
      fin_cases i <;> fin_cases j <;> norm_num [zquad, exZ]
  · split <;> rw [ex_box (by decide) (by decide), area_box (by norm_num) (by norm_num)] <;> norm_num

theorem col_row_pairs (i : Nat) (hi : i < cellCount (3, 2)) (j : Nat) (hj : j < cellCount (2, 3)) :
    SafePair (1 / 4) (gridCell (3, 2) (flVals (flList colX : List (Fl rnd))) (flVals (flList colY : List (Fl rnd))) i)
      (gridCell (2, 3) (flVals (flList rowX : List (Fl rnd))) (flVals (flList rowY : List (Fl rnd))) j) ∧
    TolClean2 (cornerPoints (gridCell (3, 2) (flVals (flList colX : List (Fl rnd))) (flVals (flList colY : List (Fl rnd))) i)
      (gridCell (2, 3) (flVals (flList rowX : List (Fl rnd))) (flVals (flList rowY : List (Fl rnd))) j)) := by
  rw [col_cell i hi, row_cell j hj]
  split <;> split <;>
  exact ⟨safePair_int (N := 2) (by norm_num) (by norm_num) (by norm_num) (by decide) (by decide) (by decide) (by decide) (by decide)
    (by decide) (by decide), corner_frac (by decide) (by decide)⟩

theorem col_row_area (i : Nat) (hi : i < cellCount (3, 2)) (j : Nat) (hj : j < cellCount (2, 3)) :
    area (quadRegion (gridCell (3, 2) (flVals (flList colX : List (Fl rnd))) (flVals (flList colY : List (Fl rnd))) i) ∩
      quadRegion (gridCell (2, 3) (flVals (flList rowX : List (Fl rnd))) (flVals (flList rowY : List (Fl rnd))) j)) = 1 := by
  rw [col_cell i hi, row_cell j hj]
  split <;> split <;>
  · rw [ex_box (by decide) (by decide), ex_box (by decide) (by decide), ex_inter, area_box (by norm_num) (by norm_num)]
    norm_num

/-- C111 in double precision: weights are computed and all of them are within 2e-11 of one half.  The crossing at (1, 1) is an edge
crossing of all four pairs. -/
example : ∃ o' : Interp (Fl (nearest 53)), setAndCompute (nearGels (nearest 53)) flSort .keptBuffer
      { src := none, dst := none, weights := [], it := none, it2 := none } (3, 2) (flList colX) (flList colY) (2, 3) (0, 0) (flList rowX)
      (flList rowY) = .ok o' ∧
    ∀ i < 2, ∀ j < 2, |(weightOf o'.weights i j).val - 1 / 2| ≤ 2 / 10 ^ 11 := by
  have hbig : ∀ i < cellCount (3, 2), 1 / 1000 ≤ area (quadRegion (gridCell (3, 2) (flVals (flList colX : List (Fl (nearest 53))))
      (flVals (flList colY : List (Fl (nearest 53)))) i)) := fun i hi => by rw [(col_cells i hi).2.2]; norm_num
  obtain ⟨o', h⟩ := C111_exists (solvesFinely_double nearGels_double) fineBy_cross flSort flSort_ok (3, 2) (2, 3) (0, 0)
    (flList colX) (flList colY) (flList rowX) (flList rowY) (by decide) (by decide) (by simp [flList, colX]) (by simp [flList, colY])
    (by simp [flList, rowX]) (by simp [flList, rowY])
    (fun i hi j hj => ⟨(col_row_pairs i hi j hj).1, (col_cells i hi).1, (col_cells i hi).2.1, (col_row_pairs i hi j hj).2,
      (cellError_double (hbig i hi)).1⟩) (by decide) (fun i hi j hj => Or.inl (by rw [col_row_area i hi j hj]; norm_num))
    { src := none, dst := none, weights := [], it := none, it2 := none }
  refine ⟨o', h, fun i hi j hj => ?_⟩
  have := C111_double (nearGels (nearest 53)) nearGels_double flSort flSort_ok (3, 2) (2, 3) (0, 0)
    (flList colX) (flList colY) (flList rowX) (flList rowY) (by decide) (by decide) (by simp [flList, colX]) (by simp [flList, colY])
    (by simp [flList, rowX]) (by simp [flList, rowY]) (fun i hi => ⟨(col_cells i hi).1, (col_cells i hi).2.1, hbig i hi⟩)
    col_row_pairs _ o' rfl h i hi j hj
  rw [overlapFraction, col_row_area i hi j hj, (col_cells i hi).2.2] at this
  exact this.trans (by norm_num)

end Sg.Props
