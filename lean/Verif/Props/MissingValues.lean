import Verif.Proof.ConserveEntries
import Verif.Props.CollapsedCell
import Verif.Props.ConserveSelf
/-
Property C135: missing values (NaN) in the source data of conservative interpolation.
-/
namespace Sg.Props
open Sg.LinearSolve Sg.Triangulate Sg.QuadIntersect Sg.Conserve Sg.Spec Sg.Plane Sg.Ieee MeasureTheory

section sums
variable {K : Type} [Field K] [LinearOrder K]

/-- The number, zero for infinities and NaN. -/
def number : Ieee K → K
  | fin x => x
  | _ => 0

theorem foldl_nan (f : Nat → Ieee K) (l : List (Nat × Ieee K)) : l.foldl (fun acc p => acc + p.2 * f p.1) nan = nan := by
  induction l with
  | nil => rfl
  | cons p l ih => rw [List.foldl_cons, nan_add, ih]

theorem sum_nan (f : Nat → Ieee K) (l : List (Nat × Ieee K)) (p : Nat × Ieee K) (hp : p ∈ l) (h : p.2 * f p.1 = nan) : weightedSum f l = nan := by
  obtain ⟨l1, l2, rfl⟩ := List.append_of_mem hp
  unfold weightedSum
  rw [List.foldl_append, List.foldl_cons, h, add_nan, foldl_nan]

theorem foldl_fin (f : Nat → Ieee K) (v : Nat → K) (l : List (Nat × K)) (a : K) (h : ∀ p ∈ l, f p.1 = fin (v p.1)) :
    (l.map fun p => (p.1, fin p.2)).foldl (fun acc p => acc + p.2 * f p.1) (fin a) = fin (l.foldl (fun acc p => acc + p.2 * v p.1) a) := by
  induction l generalizing a with
  | nil => rfl
  | cons p l ih =>
    rw [List.map_cons, List.foldl_cons, List.foldl_cons, h p (List.mem_cons_self ..), fin_mul, fin_add]
    exact ih _ fun p hp => h p (List.mem_cons_of_mem _ hp)

theorem sum_fin (f : Nat → Ieee K) (v : Nat → K) (l : List (Nat × K)) (h : ∀ p ∈ l, f p.1 = fin (v p.1)) :
    weightedSum f (l.map fun p => (p.1, fin p.2)) = fin (weightedSum v l) := foldl_fin f v l 0 h

theorem zero_mul_inf (s : Bool) : (fin (0 : K) * inf s : Ieee K) = nan := if_pos rfl

/-- **C135** Whatever calls led to the object: if all the weights of a destination cell are finite, its value is NaN as soon as the value
of one of the source cells listed for it is NaN, be its weight zero, or infinite with weight zero; and it is finite if all these values are
finite.  Values of source cells that are not listed do not matter. -/
theorem C135_listed (g : Gels (Ieee K)) (sort : List (Pt (Ieee K)) → List (Pt (Ieee K))) (mode : Mode) (o : Interp (Ieee K))
    (ho : Built g sort mode o) (srcData dstData : List (Ieee K))
    (h : ∀ e ∈ o.weights, e.1 < dstData.length ∧ ∀ p ∈ e.2, p.1 < srcData.length) :
    ∃ d', o.apply srcData dstData = .ok d' ∧ d'.length = dstData.length ∧ ∀ i l, (i, l) ∈ o.weights → (∀ p ∈ l, ∃ w, p.2 = fin w) →
      ((∃ p ∈ l, srcData[p.1]? = some nan) → d'[i]? = some nan) ∧
      ((∃ p ∈ l, p.2 = fin 0 ∧ ∃ s, srcData[p.1]? = some (inf s)) → d'[i]? = some nan) ∧
      ((∀ p ∈ l, ∃ x, srcData[p.1]? = some (fin x)) → ∃ x, d'[i]? = some (fin x)) := by
  obtain ⟨d', e, hl, hv, -⟩ := C59_apply g sort mode o ho srcData dstData h
  refine ⟨d', e, hl, fun i l hm hw => ⟨?_, ?_, ?_⟩⟩
  · rintro ⟨p, hp, hn⟩
    rw [hv i l hm, sum_nan _ l p hp (by rw [List.getD_eq_getElem?_getD, hn]; exact mul_nan _)]
  · rintro ⟨p, hp, h0, s, hn⟩
    rw [hv i l hm, sum_nan _ l p hp (by rw [List.getD_eq_getElem?_getD, hn, h0]; exact zero_mul_inf s)]
  · intro hf
    rw [hv i l hm]
    have hl' : l = (l.map fun p => (p.1, number p.2)).map fun p => (p.1, fin p.2) := by
      rw [List.map_map]
      conv_lhs => rw [← List.map_id l]
      refine List.map_congr_left fun p hp => ?_
      obtain ⟨w, hw⟩ := hw p hp
      refine Prod.ext rfl ?_
      show p.2 = fin (number p.2)
      rw [hw]
      rfl
    refine ⟨weightedSum (fun k => number (srcData.getD k 0)) (l.map fun p => (p.1, number p.2)), ?_⟩
    rw [← sum_fin (fun k => srcData.getD k 0), ← hl']
    intro p hp
    obtain ⟨q, hq, rfl⟩ := List.mem_map.1 hp
    obtain ⟨x, hx⟩ := hf q hq
    simp only [List.getD_eq_getElem?_getD, hx, Option.getD_some]
    rfl

end sums

/-- The object with weights computed in exact arithmetic, for data that may hold infinities and NaN. -/
def withWeights {K : Type} (o : Interp K) : Interp (Ieee K) :=
  { src := none, dst := none, weights := o.weights.map fun e => (e.1, e.2.map fun p => (p.1, fin p.2)), it := none, it2 := none }

theorem lookup_withWeights {K : Type} (t : List (Nat × List (Nat × K))) (i : Nat) :
    (t.map fun e => (e.1, e.2.map fun p => (p.1, (fin p.2 : Ieee K)))).lookup i = (t.lookup i).map fun l => l.map fun p => (p.1, fin p.2) := by
  induction t with
  | nil => rfl
  | cons e t ih =>
    rw [List.map_cons, List.lookup_cons, List.lookup_cons, ih]
    cases i == e.1 <;> rfl

section spread
variable (g : Gels ℝ) (hg : GelsContract g) (sort : List P2 → List P2) (hsort : ∀ l, IsStdSort l (sort l)) (mode : Mode)
  (ddims sdims per : Nat × Nat) (dx dy sx sy : List ℝ) (hd : 1 ≤ ddims.1 ∧ 1 ≤ ddims.2) (hs : 1 ≤ sdims.1 ∧ 1 ≤ sdims.2)
  (hdx : ddims.1 * ddims.2 ≤ dx.length) (hdy : ddims.1 * ddims.2 ≤ dy.length)
  (hsx : sdims.1 * sdims.2 ≤ sx.length) (hsy : sdims.1 * sdims.2 ≤ sy.length)
  (hc : ∀ i < cellCount ddims, ∀ j < cellCount sdims, CleanCells (gridCell ddims dx dy i) (gridCell sdims sx sy j))
include hg hsort hd hs hdx hdy hsx hsy hc

/-- **C135** Two grids with cells clear of the tolerances, weights in exact arithmetic, any data with infinities and NaN.  A destination
value is NaN if a source cell that covers a part of the cell, or that only has a corner in it (its boundary counts), has the value NaN, and
also if one that covers nothing and has a corner in it has an infinite value.  If all the source cells that have a point in common with the
cell have finite values, the result is the sum of covered fraction times value, or the cell has no weights and its value is left alone. -/
theorem C135_spread (hn : 0 < cellCount sdims) (o o' : Interp ℝ) (h0 : o.weights = [])
    (h : setAndCompute g sort mode o ddims dx dy sdims per sx sy = .ok o') (srcData dstData : List (Ieee ℝ))
    (hl : cellCount sdims ≤ srcData.length) (hl' : cellCount ddims ≤ dstData.length) :
    ∃ d', (withWeights o').apply srcData dstData = .ok d' ∧ d'.length = dstData.length ∧ ∀ i < cellCount ddims,
      (∀ j < cellCount sdims, (0 < area (quadRegion (gridCell ddims dx dy i) ∩ quadRegion (gridCell sdims sx sy j)) ∨
          ∃ k, gridCell sdims sx sy j k ∈ quadRegion (gridCell ddims dx dy i)) → srcData[j]? = some nan → d'[i]? = some nan) ∧
      (∀ j < cellCount sdims, area (quadRegion (gridCell ddims dx dy i) ∩ quadRegion (gridCell sdims sx sy j)) = 0 →
        (∃ k, gridCell sdims sx sy j k ∈ quadRegion (gridCell ddims dx dy i)) → ∀ s, srcData[j]? = some (inf s) → d'[i]? = some nan) ∧
      ∀ v : Nat → ℝ, (∀ j < cellCount sdims, (quadRegion (gridCell ddims dx dy i) ∩ quadRegion (gridCell sdims sx sy j)).Nonempty →
          srcData[j]? = some (fin (v j))) →
        (d'[i]? = some (fin (∑ j ∈ Finset.range (cellCount sdims), overlapFraction (gridCell ddims dx dy i) (gridCell sdims sx sy j) * v j)) ∨
          (∀ l, (i, l) ∉ o'.weights) ∧ d'[i]? = dstData[i]?) := by
  have hT := setAndCompute_spec g hg sort hsort mode ddims sdims per dx dy sx sy hd hs hdx hdy hsx hsy hc hn o o' h0 h
  have hent := entries_points g hg sort mode ddims sdims per dx dy sx sy hd hs hdx hdy hsx hsy hc o o' h0 h
  obtain ⟨d', e, hlen, hv⟩ := apply_ok (withWeights o') srcData dstData (by
      show (o'.weights.map _).Pairwise _
      rw [List.pairwise_map]
      exact hT.sorted) (by
      intro e he
      obtain ⟨e', he', rfl⟩ := List.mem_map.1 he
      refine ⟨lt_of_lt_of_le (hT.lt e' he') hl', fun p hp => ?_⟩
      obtain ⟨p', hp', rfl⟩ := List.mem_map.1 hp
      exact lt_of_lt_of_le ((hT.cell e' he').lt p' hp') hl)
  have hv : ∀ i, d'[i]? = match o'.weights.lookup i with
      | some l => some (weightedSum (fun k => srcData.getD k 0) (l.map fun p => (p.1, fin p.2))) | none => dstData[i]? := by
    intro i
    have := hv i
    rw [show (withWeights o').weights.lookup i = _ from lookup_withWeights o'.weights i] at this
    rw [this]
    cases o'.weights.lookup i <;> rfl
  have hlook : ∀ i l, (i, l) ∈ o'.weights → o'.weights.lookup i = some l := by
    intro i l hm
    obtain ⟨l1, l2, hw⟩ := List.append_of_mem hm
    rw [List.lookup_eq_some_iff]
    refine ⟨l1, l2, hw, fun p hp => ?_⟩
    have hs := hT.sorted
    rw [hw] at hs
    have := (List.pairwise_append.mp hs).2.2 p hp (i, l) (List.mem_cons_self ..)
    simp; omega
  have key : ∀ i, ∀ j, (∃ l w, (i, l) ∈ o'.weights ∧ (j, w) ∈ l) → ∀ x, srcData[j]? = some x →
      (∀ l w, (i, l) ∈ o'.weights → (j, w) ∈ l → fin w * x = nan) → d'[i]? = some nan := by
    rintro i j ⟨l, w, hm, hw⟩ x hx hz
    rw [hv i, hlook i l hm]
    show some _ = _
    rw [sum_nan _ _ (j, fin w) (List.mem_map.2 ⟨(j, w), hw, rfl⟩)]
    rw [List.getD_eq_getElem?_getD, hx]
    exact hz l w hm hw
  refine ⟨d', e, hlen, fun i hi => ⟨fun j hj hor hx => ?_, fun j hj harea hcor s hx => ?_, fun v hfin => ?_⟩⟩
  · refine key i j ?_ nan hx fun _ _ _ _ => mul_nan _
    rcases hor with hpos | ⟨k, hk⟩
    · rw [hent i hi j hj]
      constructor
      · cases hb : boxesOverlap (gridCell ddims dx dy i) (gridCell sdims sx sy j) with
        | true => rfl
        | false => exact absurd (pair_boxes hb) hpos.ne'
      · by_contra h3
        exact hpos.ne' (pair_small hg (hc i hi j hj) hsort h3)
    · exact entry_corner g hg sort mode ddims sdims per dx dy sx sy hd hs hdx hdy hsx hsy hc o o' h0 h i hi j hj k hk
  · obtain ⟨k, hk⟩ := hcor
    refine key i j (entry_corner g hg sort mode ddims sdims per dx dy sx sy hd hs hdx hdy hsx hsy hc o o' h0 h i hi j hj k hk) (inf s) hx
      fun l w hm hw => ?_
    have : w = 0 := by
      refine ((hT.cell (i, l) hm).weight (j, w) hw).trans ?_
      show overlapFraction (gridCell ddims dx dy i) (gridCell sdims sx sy j) = 0
      rw [overlapFraction, harea, zero_div]
    rw [this]
    exact zero_mul_inf s
  · cases hl0 : o'.weights.lookup i with
    | none =>
      right
      refine ⟨fun l hm => ?_, ?_⟩
      · rw [hlook i l hm] at hl0; cases hl0
      · rw [hv i, hl0]
    | some l =>
      left
      have hm : (i, l) ∈ o'.weights := by
        obtain ⟨l1, l2, e1, -⟩ := List.lookup_eq_some_iff.mp hl0
        rw [e1]; simp
      rw [hv i, hl0]
      show some _ = _
      rw [sum_fin _ v l]
      · -- the same sum over real data
        obtain ⟨r, er, -, hr⟩ := apply_value hT hn (fun i hi => (hc i hi 0 hn).dst) ((List.range (cellCount sdims)).map v)
          (List.replicate (cellCount ddims) 0) (by simp) (by simp)
        obtain ⟨r', er', -, hr'⟩ := apply_ok o' ((List.range (cellCount sdims)).map v) (List.replicate (cellCount ddims) 0) hT.sorted
          fun e he => ⟨by rw [List.length_replicate]; exact hT.lt e he, fun p hp => by
            rw [List.length_map, List.length_range]; exact (hT.cell e he).lt p hp⟩
        rw [er] at er'
        cases er'
        have hget : ∀ j < cellCount sdims, ((List.range (cellCount sdims)).map v).getD j 0 = v j := by
          intro j hj
          rw [List.getD_eq_getElem?_getD, List.getElem?_map, List.getElem?_range hj]
          rfl
        have h1 := hr i hi (fun _ => by rw [List.getD_eq_getElem?_getD, List.getElem?_replicate, if_pos hi]; rfl)
        have h2 := hr' i
        rw [hl0] at h2
        rw [List.getD_eq_getElem?_getD, h2] at h1
        have h3 : weightedSum v l = weightedSum (fun k => ((List.range (cellCount sdims)).map v).getD k 0) l := by
          unfold weightedSum
          refine List.foldl_ext _ _ _ fun a p hp => ?_
          simp only [hget p.1 ((hT.cell (i, l) hm).lt p hp)]
        congr 2
        rw [h3]
        refine h1.trans (Finset.sum_congr rfl fun j hj => ?_)
        rw [hget j (Finset.mem_range.1 hj)]
      · intro p hp
        have hj := (hT.cell (i, l) hm).lt p hp
        have := hfin p.1 hj (entry_meet g hg sort mode ddims sdims per dx dy sx sy hd hs hdx hdy hsx hsy hc o o' h0 h i hi p.1 hj ⟨l, p.2, hm, hp⟩)
        rw [List.getD_eq_getElem?_getD, this]
        rfl

end spread

/-! ### A grid regridded to itself -/

/-- Cells of a grid with `n1` cells along the second axis that are the same or have a corner in common. -/
def Touching (n1 i j : Nat) : Prop :=
  i / n1 ≤ j / n1 + 1 ∧ j / n1 ≤ i / n1 + 1 ∧ i % n1 ≤ j % n1 + 1 ∧ j % n1 ≤ i % n1 + 1

theorem touching_corner {dims : Nat × Nat} {x y : List ℝ} {i j : Nat} (h : Touching (dims.2 - 1) i j) :
    ∃ k, gridCell dims x y j k ∈ quadRegion (gridCell dims x y i) := by
  obtain ⟨h1, h2, h3, h4⟩ := h
  unfold gridCell
  generalize i / (dims.2 - 1) = a at *
  generalize i % (dims.2 - 1) = b at *
  generalize j / (dims.2 - 1) = a' at *
  generalize j % (dims.2 - 1) = b' at *
  have key : ∀ k k' : Fin 4, gridCellAt dims x y a' b' k = gridCellAt dims x y a b k' →
      ∃ k, gridCellAt dims x y a' b' k ∈ quadRegion (gridCellAt dims x y a b) := fun k k' e => ⟨k, by rw [e]; exact corner_region _ k'⟩
  have ha : a' = a ∨ a' = a + 1 ∨ a = a' + 1 := by omega
  have hb : b' = b ∨ b' = b + 1 ∨ b = b' + 1 := by omega
  rcases ha with rfl | rfl | rfl <;> rcases hb with rfl | rfl | rfl
  · exact key 0 0 rfl
  · exact key 0 3 rfl
  · exact key 3 0 rfl
  · exact key 0 1 rfl
  · exact key 0 2 rfl
  · exact key 3 1 rfl
  · exact key 1 0 rfl
  · exact key 1 3 rfl
  · exact key 2 0 rfl

theorem meet_touching {φ : AffineMap2} {dims : Nat × Nat} {X Y : Nat → ℤ} {x y : List ℝ} (h : LatticeGrid φ dims X Y x y) (hφ : LargeUnits φ)
    {i j : Nat} (hi : i < cellCount dims) (hj : j < cellCount dims)
    (hm : (quadRegion (gridCell dims x y i) ∩ quadRegion (gridCell dims x y j)).Nonempty) : Touching (dims.2 - 1) i j := by
  obtain ⟨ha, hb, -⟩ := cell_split dims i hi
  obtain ⟨ha', hb', -⟩ := cell_split dims j hj
  unfold gridCell at hm
  rw [lattice_inter hφ h h _ _ _ _ ha hb ha' hb'] at hm
  obtain ⟨_, ⟨p, q⟩, ⟨hp, hq⟩, -⟩ := hm
  have hx := hp.1.trans hp.2
  have hy := hq.1.trans hq.2
  unfold Touching
  generalize i / (dims.2 - 1) = a at *
  generalize i % (dims.2 - 1) = b at *
  generalize j / (dims.2 - 1) = a' at *
  generalize j % (dims.2 - 1) = b' at *
  have e1 : a ≤ a' + 1 ∧ a' ≤ a + 1 := by
    rcases intervals h.incX a a' ha ha' with h | ⟨h, -⟩ | ⟨h, -⟩ | h
    · omega
    · omega
    · omega
    · exact absurd hx (not_le.2 h)
  have e2 : b ≤ b' + 1 ∧ b' ≤ b + 1 := by
    rcases intervals h.incY b b' hb hb' with h | ⟨h, -⟩ | ⟨h, -⟩ | h
    · omega
    · omega
    · omega
    · exact absurd hy (not_le.2 h)
  exact ⟨e1.1, e1.2, e2.1, e2.2⟩

open Sg.Grids

/-- **C135** A grid made by `createRectangularGrid`, of any size with cells larger than the tolerances, regridded to itself: a missing value
of a cell makes the values of the cell and of the up to eight cells around it NaN, although they have no area in common; a cell with finite
values around it is copied. -/
theorem C135_self (g : Gels ℝ) (hg : GelsContract g) (sort : List P2 → List P2) (hsort : ∀ l, IsStdSort l (sort l))
    (hst : StableShort sort) (per : Nat × Nat) (n0 n1 : Nat) (hn0 : 0 < n0) (hn1 : 0 < n1) (lo hi : ℝ × ℝ)
    (u0 : (1 / 1000000 : ℝ) < (hi.1 - lo.1) / n0) (u1 : (1 / 1000000 : ℝ) < (hi.2 - lo.2) / n1)
    (c : List ℝ × List ℝ) (h0 : (n0 + 1) * (n1 + 1) ≤ c.1.length) (h1 : (n0 + 1) * (n1 + 1) ≤ c.2.length) (o : Interp ℝ) (ho : o.weights = []) :
    ∃ r o', createRectangularGrid (n0 + 1) (n1 + 1) lo hi c = .ok r ∧
      setAndCompute g sort .keptBuffer o (n0 + 1, n1 + 1) r.1 r.2 (n0 + 1, n1 + 1) per r.1 r.2 = .ok o' ∧
      ∀ srcData dstData : List (Ieee ℝ), n0 * n1 ≤ srcData.length → n0 * n1 ≤ dstData.length →
        ∃ d', (withWeights o').apply srcData dstData = .ok d' ∧ d'.length = dstData.length ∧ ∀ i < n0 * n1,
          ((∃ j < n0 * n1, Touching n1 i j ∧ srcData[j]? = some nan) → d'[i]? = some nan) ∧
          ((∃ j < n0 * n1, j ≠ i ∧ Touching n1 i j ∧ ∃ s, srcData[j]? = some (inf s)) → d'[i]? = some nan) ∧
          ((∀ j < n0 * n1, Touching n1 i j → ∃ x, srcData[j]? = some (fin x)) → d'[i]? = srcData[i]?) := by
  obtain ⟨r, er, -⟩ := C24_rectangular (n0 + 1) (n1 + 1) (by omega) (by omega) lo hi c h0 h1
  have hl := rect_lattice n0 n1 1 1 hn0 hn1 one_pos one_pos (by norm_num) (by norm_num) lo hi c r h0 h1 er
  have hφ := rectMap_large ((hi.1 - lo.1) / (n0 * (1 : Nat))) ((hi.2 - lo.2) / (n1 * (1 : Nat))) lo (by simpa using u0) (by simpa using u1)
  have hn : 0 < cellCount (n0 + 1, n1 + 1) := lattice_cells_pos hl
  have hcl := fun i hi j hj => lattice_clean hφ hl hl i hi j hj
  have hdim : 1 ≤ (n0 + 1, n1 + 1).1 ∧ 1 ≤ (n0 + 1, n1 + 1).2 := ⟨by show 1 ≤ n0 + 1; omega, by show 1 ≤ n1 + 1; omega⟩
  obtain ⟨o', h⟩ := C132_safe_partial g hg sort hsort (n0 + 1, n1 + 1) per r.1 r.2 hdim hl.lenX hl.lenY hcl hst
    (fun i hi => lattice_strict hl hφ i hi) (lattice_conforming hl hφ) hn o
  have hno := lattice_noOverlap hφ hl
  have hnn : cellCount (n0 + 1, n1 + 1) = n0 * n1 := rfl
  have hT : ∀ i j, Touching n1 i j ↔ Touching ((n0 + 1, n1 + 1).2 - 1) i j := fun i j => Iff.rfl
  refine ⟨r, o', er, h, fun srcData dstData hs hd => ?_⟩
  obtain ⟨d', e, hlen, hv⟩ := C135_spread g hg sort hsort .keptBuffer (n0 + 1, n1 + 1) (n0 + 1, n1 + 1) per r.1 r.2 r.1 r.2 hdim hdim
    hl.lenX hl.lenY hl.lenX hl.lenY hcl hn o o' ho h srcData dstData hs hd
  refine ⟨d', e, hlen, fun i hi => ?_⟩
  obtain ⟨v1, v2, v3⟩ := hv i hi
  refine ⟨?_, ?_, fun hfin => ?_⟩
  · rintro ⟨j, hj, ht, hx⟩
    exact v1 j hj (Or.inr (touching_corner ht)) hx
  · rintro ⟨j, hj, hne, ht, s, hx⟩
    exact v2 j hj (hno i hi j hj (Ne.symm hne)) (touching_corner ht) s hx
  · have hself : Touching n1 i i := ⟨by omega, by omega, by omega, by omega⟩
    obtain ⟨xi, hxi⟩ := hfin i hi hself
    have hval : ∀ j < n0 * n1, Touching n1 i j → srcData[j]? = some (fin ((fun j => number (srcData.getD j 0)) j)) := by
      intro j hj ht
      obtain ⟨x, hx⟩ := hfin j hj ht
      simp only [List.getD_eq_getElem?_getD, hx, Option.getD_some]
      rfl
    have hmeet : ∀ j < n0 * n1, (quadRegion (gridCell (n0 + 1, n1 + 1) r.1 r.2 i) ∩ quadRegion (gridCell (n0 + 1, n1 + 1) r.1 r.2 j)).Nonempty →
        Touching n1 i j := fun j hj hm => meet_touching hl hφ hi hj hm
    rcases v3 (fun j => number (srcData.getD j 0)) (fun j hj hm => hval j hj (hmeet j hj hm)) with hr | ⟨hr, -⟩
    · rw [hr, hval i hi hself]
      congr 2
      rw [Finset.sum_congr rfl fun j hj => by rw [self_fraction (n0 + 1, n1 + 1) r.1 r.2 hcl hno i hi j (Finset.mem_range.1 hj)]]
      simp only [ite_mul, one_mul, zero_mul]
      rw [Finset.sum_ite_eq, hnn, if_pos (Finset.mem_range.2 hi)]
    · exfalso
      obtain ⟨k, hk⟩ := touching_corner (dims := (n0 + 1, n1 + 1)) (x := r.1) (y := r.2) (i := i) (j := i) hself
      obtain ⟨l, w, hm, -⟩ := entry_corner g hg sort .keptBuffer (n0 + 1, n1 + 1) (n0 + 1, n1 + 1) per r.1 r.2 r.1 r.2 hdim hdim
        hl.lenX hl.lenY hl.lenX hl.lenY hcl o o' ho h i hi i hi k hk
      exact hr l hm

/-- **C135** is false as a user would expect it: with the whole computation in arithmetic with NaN, two cells side by side regridded to
themselves, data one and NaN, both results are NaN although the cells have no area in common. -/
theorem C135_neighbour_refuted : ∃ (g : Gels (Ieee ℚ)) (sort : List (Pt (Ieee ℚ)) → List (Pt (Ieee ℚ))) (o : Interp (Ieee ℚ)),
    (∀ r : GelsArgs ℚ, g { trans := r.trans, m := r.m, n := r.n, nrhs := r.nrhs, a := r.a.map fin, lda := r.lda, b := r.b.map fin, ldb := r.ldb, lwork := r.lwork } =
      { a := (Witness.cramerGels r).a.map fin, b := (Witness.cramerGels r).b.map fin, info := (Witness.cramerGels r).info }) ∧
    GelsContract Witness.cramerGels ∧ (∀ l, (sort l).Perm l) ∧ Conserve.new .lenient = .ok o ∧
    (setAndCompute g sort .keptBuffer o (3, 2) [fin 0, fin 0, fin 1, fin 1, fin 2, fin 2] [fin 0, fin 1, fin 0, fin 1, fin 0, fin 1] (3, 2) (0, 0)
      [fin 0, fin 0, fin 1, fin 1, fin 2, fin 2] [fin 0, fin 1, fin 0, fin 1, fin 0, fin 1] >>= fun o' => o'.apply [fin 1, nan] [fin 0, fin 0]) =
        .ok [nan, nan] := by
  refine ⟨ieeeGels, ieeeSort, { src := none, dst := none, weights := [], it := none, it2 := none }, ?_, Witness.cramerGels_contract,
    fun l => List.perm_insertionSort _ _, rfl, ?_⟩
  · intro r
    have hu : ∀ l : List ℚ, (l.map fin).map unfin = l := fun l => by
      rw [List.map_map]
      exact List.map_id'' (fun _ => rfl) l
    unfold ieeeGels
    simp only [hu]
  · decide +kernel

/-! ### The hypotheses are met -/

/-- C135: the grid of two degrees on the whole sphere, with one missing value: the cells around it are lost, a cell farther away is not. -/
example : ∃ (r : List ℝ × List ℝ) (o o' : Interp ℝ) (d' : List (Ieee ℝ)),
    createRectangularGrid 181 91 (0, -90) (360, 90) (List.replicate 16471 0, List.replicate 16471 0) = .ok r ∧
    setAndCompute refGels Sg.Witness.stdSort .keptBuffer o (181, 91) r.1 r.2 (181, 91) (0, 0) r.1 r.2 = .ok o' ∧
    (withWeights o').apply ((List.range 16200).map (fun i : Nat => if i = 5000 then nan else fin (i : ℝ))) (List.replicate 16200 (fin 0)) = .ok d' ∧
    d'[5000]? = some nan ∧ d'[5001]? = some nan ∧ d'[4909]? = some nan ∧ d'[5002]? = some (fin 5002) := by
  obtain ⟨r, o', h1, h2, h3⟩ := C135_self refGels refGels_contract Sg.Witness.stdSort Sg.Witness.stdSort_ok stdSort_stable (0, 0)
    180 90 (by norm_num) (by norm_num) (0, -90) (360, 90) (by norm_num) (by norm_num) (List.replicate 16471 0, List.replicate 16471 0)
    (by rw [List.length_replicate]) (by rw [List.length_replicate]) { src := none, dst := none, weights := [], it := none, it2 := none } rfl
  obtain ⟨d', e, -, hv⟩ := h3 ((List.range 16200).map (fun i : Nat => if i = 5000 then nan else fin (i : ℝ))) (List.replicate 16200 (fin 0))
    (by rw [List.length_map, List.length_range]) (by rw [List.length_replicate])
  have hget : ∀ i : Nat, i < 16200 → ((List.range 16200).map (fun i : Nat => if i = 5000 then nan else (fin (i : ℝ) : Ieee ℝ)))[i]? =
      some (if i = 5000 then nan else fin (i : ℝ)) := fun i hi => by
    rw [List.getElem?_map, List.getElem?_range hi]
    rfl
  have hnan := hget 5000 (by norm_num)
  rw [if_pos rfl] at hnan
  refine ⟨r, _, o', d', h1, h2, e, ?_, ?_, ?_, ?_⟩
  · exact (hv 5000 (by norm_num)).1 ⟨5000, by norm_num, by unfold Touching; omega, hnan⟩
  · exact (hv 5001 (by norm_num)).1 ⟨5000, by norm_num, by unfold Touching; omega, hnan⟩
  · exact (hv 4909 (by norm_num)).1 ⟨5000, by norm_num, by unfold Touching; omega, hnan⟩
  · rw [(hv 5002 (by norm_num)).2.2 ?_, hget 5002 (by norm_num), if_neg (by norm_num)]
    · norm_num
    · intro j hj ht
      have hne : j ≠ 5000 := by
        rintro rfl
        unfold Touching at ht
        omega
      exact ⟨_, by rw [hget j hj, if_neg hne]⟩

end Sg.Props
