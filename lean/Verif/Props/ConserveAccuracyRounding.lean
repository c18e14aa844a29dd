import Verif.Props.ConserveAccuracy
import Verif.Props.ConserveRounding
/-
Property C156: accuracy of conservative interpolation in rounded arithmetic with a backward stable solver.
-/
namespace Sg.Props
open Sg Sg.LinearSolve Sg.Triangulate Sg.QuadIntersect Sg.Conserve Sg.Spec Sg.Plane MeasureTheory

variable {rnd : ℝ → ℝ}

/-- The data are the mean values over the cells of the grid of a density `f`, up to `η`. -/
def NearMeans (dims : Nat × Nat) (x y : List ℝ) (f : ℝ × ℝ → ℝ) (data : Nat → ℝ) (η : ℝ) : Prop :=
  ∀ j < cellCount dims, |data j * area (quadRegion (gridCell dims x y j)) - ∫ p in quadRegion (gridCell dims x y j), f p| ≤
    η * area (quadRegion (gridCell dims x y j))

theorem near_of_varies {f : P2 → ℝ} {S : Set P2} (hS : IsCompact S) (ha : 0 < area S) (hf : IntegrableOn f S) (c δ η : ℝ)
    (hc : |c * area S - ∫ p in S, f p| ≤ η * area S) (h : ∀ p ∈ S, ∀ q ∈ S, |f p - f q| ≤ δ) : ∀ p ∈ S, |c - f p| ≤ δ + η := by
  intro p hp
  have h1 := integral_near hS hf (f p) δ (h p hp)
  have h2 : |(c - f p) * area S| ≤ (δ + η) * area S := by
    have e : (c - f p) * area S = (c * area S - ∫ q in S, f q) - (f p * area S - ∫ q in S, f q) := by ring
    rw [e]
    refine (abs_sub _ _).trans ?_
    linarith
  rw [abs_mul, abs_of_pos ha] at h2
  exact le_of_mul_le_mul_right h2 ha

section rounded
variable {g : Gels (Fl rnd)} {u β Δ L R : ℝ} (hf : SolvesFinely rnd g u β Δ) (hfine : FineBy rnd u 0 (crossError u β Δ L R) L)
  (sort : List (Pt (Fl rnd)) → List (Pt (Fl rnd))) (hsort : ∀ l, IsStdSort l (sort l))
  (ddims sdims per : Nat × Nat) (dx dy sx sy : List (Fl rnd))
  (hd : 1 ≤ ddims.1 ∧ 1 ≤ ddims.2) (hs : 1 ≤ sdims.1 ∧ 1 ≤ sdims.2)
  (hdx : ddims.1 * ddims.2 ≤ dx.length) (hdy : ddims.1 * ddims.2 ≤ dy.length)
  (hsx : sdims.1 * sdims.2 ≤ sx.length) (hsy : sdims.1 * sdims.2 ≤ sy.length)
  (hc : ∀ i < cellCount ddims, ∀ j < cellCount sdims,
    SafeCells u β Δ L R (gridCell ddims (flVals dx) (flVals dy) i) (gridCell sdims (flVals sx) (flVals sy) j))
include hf hfine hsort hd hs hdx hdy hsx hsy hc

/-- **C156, amounts.**  If the source data are, up to `η`, the mean values of a density over the source cells, and this density varies by at most `δ` over each source cell,
then the amount in a destination cell that meets the source grid differs from the integral of the density over the part that the source grid covers by at most `δ + η`
times the area of this part, plus the area of the cell times the rounding error `valueError` of a value. -/
theorem C156_amount (hn : 0 < cellCount sdims) (o o' : Interp (Fl rnd)) (h0 : o.weights = [])
    (h : setAndCompute g sort .keptBuffer o ddims dx dy sdims per sx sy = .ok o')
    (srcData dstData : List (Fl rnd)) (hlen : cellCount sdims ≤ srcData.length) (hlen' : cellCount ddims ≤ dstData.length)
    (hno : NoOverlap sdims (flVals sx) (flVals sy))
    (f : ℝ × ℝ → ℝ) (hi : IntegrableOn f (gridRegion sdims (flVals sx) (flVals sy))) (η : ℝ)
    (hm : NearMeans sdims (flVals sx) (flVals sy) f (fun j => (srcData.getD j 0).val) η) (δ : ℝ) (hv : VariesBy sdims (flVals sx) (flVals sy) f δ) :
    ∃ d', o'.apply srcData dstData = .ok d' ∧ d'.length = dstData.length ∧ ∀ i < cellCount ddims,
      (∃ j < cellCount sdims, area (quadRegion (gridCell ddims (flVals dx) (flVals dy) i) ∩
        quadRegion (gridCell sdims (flVals sx) (flVals sy) j)) ≠ 0) →
      |(d'.getD i 0).val * area (quadRegion (gridCell ddims (flVals dx) (flVals dy) i)) -
          ∫ p in quadRegion (gridCell ddims (flVals dx) (flVals dy) i) ∩ gridRegion sdims (flVals sx) (flVals sy), f p| ≤
        (δ + η) * area (quadRegion (gridCell ddims (flVals dx) (flVals dy) i) ∩ gridRegion sdims (flVals sx) (flVals sy)) +
        valueError u (cellError u β Δ L R (gridCell ddims (flVals dx) (flVals dy) i)) (cellCount sdims)
          (fun j => overlapFraction (gridCell ddims (flVals dx) (flVals dy) i) (gridCell sdims (flVals sx) (flVals sy) j))
          (fun j => (srcData.getD j 0).val) * area (quadRegion (gridCell ddims (flVals dx) (flVals dy) i)) := by
  obtain ⟨d', e, hl, hval⟩ := C111_apply hf hfine sort hsort ddims sdims per dx dy sx sy hd hs hdx hdy hsx hsy hc hn o o' h0 h srcData dstData hlen hlen'
  refine ⟨d', e, hl, fun i hi' hmeet => ?_⟩
  have hvi := hval i hi' hmeet
  set V := valueError u (cellError u β Δ L R (gridCell ddims (flVals dx) (flVals dy) i)) (cellCount sdims)
          (fun j => overlapFraction (gridCell ddims (flVals dx) (flVals dy) i) (gridCell sdims (flVals sx) (flVals sy) j))
          (fun j => (srcData.getD j 0).val) with hV
  set D := quadRegion (gridCell ddims (flVals dx) (flVals dy) i) with hD
  have hDc : IsCompact D := isCompact_region _
  have hpos : 0 < area D := area_pos (hc i hi' 0 hn).safe.convex.1
  have hint : ∫ p in D ∩ gridRegion sdims (flVals sx) (flVals sy), f p =
      ∑ j ∈ Finset.range (cellCount sdims), ∫ p in D ∩ quadRegion (gridCell sdims (flVals sx) (flVals sy) j), f p :=
    integral_parts hDc (fun j => quadRegion (gridCell sdims (flVals sx) (flVals sy) j)) (fun j => isCompact_region _) _ hno hi
  have harea : area (D ∩ gridRegion sdims (flVals sx) (flVals sy)) =
      ∑ j ∈ Finset.range (cellCount sdims), area (D ∩ quadRegion (gridCell sdims (flVals sx) (flVals sy) j)) :=
    area_parts hDc (fun j => quadRegion (gridCell sdims (flVals sx) (flVals sy) j)) (fun j => isCompact_region _) _ hno
  have hexact : |(∑ j ∈ Finset.range (cellCount sdims), overlapFraction (gridCell ddims (flVals dx) (flVals dy) i)
      (gridCell sdims (flVals sx) (flVals sy) j) * (srcData.getD j 0).val) * area D - ∫ p in D ∩ gridRegion sdims (flVals sx) (flVals sy), f p| ≤
      (δ + η) * area (D ∩ gridRegion sdims (flVals sx) (flVals sy)) := by
    rw [hint, harea, Finset.sum_mul, ← Finset.sum_sub_distrib, Finset.mul_sum]
    refine (Finset.abs_sum_le_sum_abs _ _).trans (Finset.sum_le_sum fun j hj => ?_)
    have hj' := Finset.mem_range.1 hj
    set S := quadRegion (gridCell sdims (flVals sx) (flVals sy) j) with hS
    have hSc : IsCompact S := isCompact_region _
    have hfS : IntegrableOn f S := hi.mono_set (Set.subset_biUnion_of_mem (u := fun j => quadRegion (gridCell sdims (flVals sx) (flVals sy) j)) hj)
    have hSpos : 0 < area S := area_pos (hc i hi' j hj').safe.convex.2
    have hnear := near_of_varies hSc hSpos hfS (srcData.getD j 0).val δ η (hm j hj') (hv j hj')
    have e1 : overlapFraction (gridCell ddims (flVals dx) (flVals dy) i) (gridCell sdims (flVals sx) (flVals sy) j) * (srcData.getD j 0).val * area D =
        (srcData.getD j 0).val * area (D ∩ S) := by
      unfold overlapFraction
      rw [← hD, ← hS]
      field_simp
    rw [e1]
    exact integral_near (hDc.inter hSc) (hfS.mono_set Set.inter_subset_right) _ _ fun p hp => hnear p hp.2
  have h1 := mul_le_mul_of_nonneg_right hvi hpos.le
  rw [← abs_of_pos hpos, ← abs_mul, abs_of_pos hpos, sub_mul] at h1
  have a1 := abs_le.1 h1
  have a2 := abs_le.1 hexact
  rw [abs_le]
  constructor <;> linarith [a1.1, a1.2, a2.1, a2.2]

/-- **C156, values.**  In a destination cell that is covered, the value differs from the density at any point of the cell by at most its variation `δ` over a source cell plus
its variation `ε` over the destination cell, the error `η` of the data and the rounding error. -/
theorem C156_value (hn : 0 < cellCount sdims) (o o' : Interp (Fl rnd)) (h0 : o.weights = [])
    (h : setAndCompute g sort .keptBuffer o ddims dx dy sdims per sx sy = .ok o')
    (srcData dstData : List (Fl rnd)) (hlen : cellCount sdims ≤ srcData.length) (hlen' : cellCount ddims ≤ dstData.length)
    (hno : NoOverlap sdims (flVals sx) (flVals sy))
    (f : ℝ × ℝ → ℝ) (hi : IntegrableOn f (gridRegion sdims (flVals sx) (flVals sy))) (η : ℝ)
    (hm : NearMeans sdims (flVals sx) (flVals sy) f (fun j => (srcData.getD j 0).val) η) (δ ε : ℝ) (hv : VariesBy sdims (flVals sx) (flVals sy) f δ)
    (hv' : VariesBy ddims (flVals dx) (flVals dy) f ε) :
    ∃ d', o'.apply srcData dstData = .ok d' ∧ ∀ i < cellCount ddims,
      quadRegion (gridCell ddims (flVals dx) (flVals dy) i) ⊆ gridRegion sdims (flVals sx) (flVals sy) →
      ∀ p ∈ quadRegion (gridCell ddims (flVals dx) (flVals dy) i), |(d'.getD i 0).val - f p| ≤ δ + ε + η +
        valueError u (cellError u β Δ L R (gridCell ddims (flVals dx) (flVals dy) i)) (cellCount sdims)
          (fun j => overlapFraction (gridCell ddims (flVals dx) (flVals dy) i) (gridCell sdims (flVals sx) (flVals sy) j))
          (fun j => (srcData.getD j 0).val) := by
  obtain ⟨d', e, _, hall⟩ := C156_amount hf hfine sort hsort ddims sdims per dx dy sx sy hd hs hdx hdy hsx hsy hc hn o o' h0 h srcData dstData hlen
    hlen' hno f hi η hm δ hv
  refine ⟨d', e, fun i hi' hcov p hp => ?_⟩
  have hpos : 0 < area (quadRegion (gridCell ddims (flVals dx) (flVals dy) i)) := area_pos (hc i hi' 0 hn).safe.convex.1
  have hmeet : ∃ j < cellCount sdims, area (quadRegion (gridCell ddims (flVals dx) (flVals dy) i) ∩
        quadRegion (gridCell sdims (flVals sx) (flVals sy) j)) ≠ 0 := by
    by_contra hz
    push Not at hz
    have hsum := fractions_sum_one hpos sdims (flVals sx) (flVals sy) hcov hno
    rw [Finset.sum_eq_zero fun j hj => by rw [overlapFraction, hz j (Finset.mem_range.mp hj), zero_div]] at hsum
    exact one_ne_zero hsum.symm
  have h1 := hall i hi' hmeet
  rw [Set.inter_eq_left.2 hcov] at h1
  set V := valueError u (cellError u β Δ L R (gridCell ddims (flVals dx) (flVals dy) i)) (cellCount sdims)
          (fun j => overlapFraction (gridCell ddims (flVals dx) (flVals dy) i) (gridCell sdims (flVals sx) (flVals sy) j))
          (fun j => (srcData.getD j 0).val) with hV
  set D := quadRegion (gridCell ddims (flVals dx) (flVals dy) i) with hD
  have h2 := integral_near (isCompact_region _) (hi.mono_set hcov) (f p) ε (fun q hq => hv' i hi' p hp q hq)
  have h3 : |((d'.getD i 0).val - f p) * area D| ≤ (δ + ε + η + V) * area D := by
    have e : ((d'.getD i 0).val - f p) * area D = ((d'.getD i 0).val * area D - ∫ q in D, f q) - (f p * area D - ∫ q in D, f q) := by ring
    rw [e]
    refine (abs_sub _ _).trans ?_
    have e2 : (δ + ε + η + V) * area D = ((δ + η) * area D + V * area D) + ε * area D := by ring
    rw [e2]
    exact add_le_add h1 h2
  rw [abs_mul, abs_of_pos hpos] at h3
  exact le_of_mul_le_mul_right h3 hpos

/-- **C156, the total.**  Over grids that cover the same region the amounts in the destination cells add up to the integral of the density, up to the error `η` of the data
times the area of the region and the rounding errors. -/
theorem C156_total (hn : 0 < cellCount sdims) (o o' : Interp (Fl rnd)) (h0 : o.weights = [])
    (h : setAndCompute g sort .keptBuffer o ddims dx dy sdims per sx sy = .ok o')
    (srcData dstData : List (Fl rnd)) (hlen : cellCount sdims ≤ srcData.length) (hlen' : cellCount ddims ≤ dstData.length)
    (hno : NoOverlap ddims (flVals dx) (flVals dy)) (hno' : NoOverlap sdims (flVals sx) (flVals sy))
    (hsame : gridRegion ddims (flVals dx) (flVals dy) = gridRegion sdims (flVals sx) (flVals sy))
    (f : ℝ × ℝ → ℝ) (hi : IntegrableOn f (gridRegion sdims (flVals sx) (flVals sy))) (η : ℝ)
    (hm : NearMeans sdims (flVals sx) (flVals sy) f (fun j => (srcData.getD j 0).val) η) :
    ∃ d', o'.apply srcData dstData = .ok d' ∧
      |∑ i ∈ Finset.range (cellCount ddims), area (quadRegion (gridCell ddims (flVals dx) (flVals dy) i)) * (d'.getD i 0).val -
          ∫ p in gridRegion sdims (flVals sx) (flVals sy), f p| ≤
        η * area (gridRegion sdims (flVals sx) (flVals sy)) +
        ∑ i ∈ Finset.range (cellCount ddims), area (quadRegion (gridCell ddims (flVals dx) (flVals dy) i)) *
          valueError u (cellError u β Δ L R (gridCell ddims (flVals dx) (flVals dy) i)) (cellCount sdims)
            (fun j => overlapFraction (gridCell ddims (flVals dx) (flVals dy) i) (gridCell sdims (flVals sx) (flVals sy) j))
            (fun j => (srcData.getD j 0).val) := by
  obtain ⟨d', e, _, ht⟩ := C111_conserved hf hfine sort hsort ddims sdims per dx dy sx sy hd hs hdx hdy hsx hsy hc hn o o' h0 h srcData dstData hlen
    hlen' hno hno' hsame
  refine ⟨d', e, ?_⟩
  have hcomp : IsCompact (gridRegion sdims (flVals sx) (flVals sy)) := (Finset.range (cellCount sdims)).isCompact_biUnion fun j _ => isCompact_region _
  have hint := integral_parts hcomp (fun j => quadRegion (gridCell sdims (flVals sx) (flVals sy) j)) (fun j => isCompact_region _) _ hno' hi
  have hare := area_parts hcomp (fun j => quadRegion (gridCell sdims (flVals sx) (flVals sy) j)) (fun j => isCompact_region _) _ hno'
  have e1 : gridRegion sdims (flVals sx) (flVals sy) ∩ (⋃ j ∈ Finset.range (cellCount sdims), quadRegion (gridCell sdims (flVals sx) (flVals sy) j)) =
    gridRegion sdims (flVals sx) (flVals sy) := Set.inter_self _
  have hsub : ∀ j ∈ Finset.range (cellCount sdims), gridRegion sdims (flVals sx) (flVals sy) ∩ quadRegion (gridCell sdims (flVals sx) (flVals sy) j) =
      quadRegion (gridCell sdims (flVals sx) (flVals sy) j) := fun j hj =>
    Set.inter_eq_right.2 (Set.subset_biUnion_of_mem (u := fun j => quadRegion (gridCell sdims (flVals sx) (flVals sy) j)) hj)
  rw [e1] at hint hare
  have hsrc : |∑ j ∈ Finset.range (cellCount sdims), area (quadRegion (gridCell sdims (flVals sx) (flVals sy) j)) * (srcData.getD j 0).val -
      ∫ p in gridRegion sdims (flVals sx) (flVals sy), f p| ≤ η * area (gridRegion sdims (flVals sx) (flVals sy)) := by
    rw [hint, hare, Finset.mul_sum, ← Finset.sum_sub_distrib]
    refine (Finset.abs_sum_le_sum_abs _ _).trans (Finset.sum_le_sum fun j hj => ?_)
    rw [hsub j hj, mul_comm]
    exact hm j (Finset.mem_range.1 hj)
  refine (abs_sub_le _ (∑ j ∈ Finset.range (cellCount sdims), area (quadRegion (gridCell sdims (flVals sx) (flVals sy) j)) * (srcData.getD j 0).val) _).trans ?_
  linarith

end rounded

/-! ### A case meeting the hypotheses -/

theorem row_density : NearMeans (2, 3) (flVals (flList rowX : List (Fl rnd))) (flVals (flList rowY : List (Fl rnd))) (fun p => p.1)
      (fun j => (([⟨1⟩, ⟨1⟩] : List (Fl rnd)).getD j 0).val) 0 ∧
    VariesBy (2, 3) (flVals (flList rowX : List (Fl rnd))) (flVals (flList rowY : List (Fl rnd))) (fun p => p.1) 2 ∧
    VariesBy (3, 2) (flVals (flList colX : List (Fl rnd))) (flVals (flList colY : List (Fl rnd))) (fun p => p.1) 1 := by
  refine ⟨fun j hj => ?_, fun j hj p hp q hq => ?_, fun j hj p hp q hq => ?_⟩
  · rw [row_cell j hj]
    rcases (show j = 0 ∨ j = 1 by simp [cellCount] at hj; omega) with rfl | rfl
    · rw [if_pos rfl, ex_box (by decide) (by decide), (ex_int_box _ _ _ _ (by norm_num) (by norm_num)).1,
        (ex_int_box _ _ _ _ (by norm_num) (by norm_num)).2]
      norm_num
    · rw [if_neg (by decide), ex_box (by decide) (by decide), (ex_int_box _ _ _ _ (by norm_num) (by norm_num)).1,
        (ex_int_box _ _ _ _ (by norm_num) (by norm_num)).2]
      norm_num
  · rw [row_cell j hj] at hp hq
    split at hp <;> rename_i h <;> simp only [h, if_true, if_false] at hq <;> rw [ex_box (by decide) (by decide)] at hp hq <;>
    · have h1 := hp.1; have h2 := hq.1
      simp only [Set.mem_Icc] at h1 h2
      push_cast at h1 h2
      rw [abs_le]; constructor <;> linarith [h1.1, h1.2, h2.1, h2.2]
  · rw [col_cell j hj] at hp hq
    split at hp <;> rename_i h <;> simp only [h, if_true, if_false] at hq <;> rw [ex_box (by decide) (by decide)] at hp hq <;>
    · have h1 := hp.1; have h2 := hq.1
      simp only [Set.mem_Icc] at h1 h2
      push_cast at h1 h2
      rw [abs_le]; constructor <;> linarith [h1.1, h1.2, h2.1, h2.2]

theorem row_region : gridRegion (2, 3) (flVals (flList rowX : List (Fl rnd))) (flVals (flList rowY : List (Fl rnd))) = Set.Icc (0 : ℝ) 2 ×ˢ Set.Icc (0 : ℝ) 2 := by
  unfold gridRegion
  have e : Finset.range (cellCount (2, 3)) = {0, 1} := rfl
  rw [e]
  simp only [Finset.mem_insert, Finset.mem_singleton, Set.iUnion_iUnion_eq_or_left, Set.iUnion_iUnion_eq_left]
  rw [row_cell 0 (by decide), row_cell 1 (by decide), if_pos rfl, if_neg (by decide), ex_box (by decide) (by decide), ex_box (by decide) (by decide)]
  ext ⟨a, b⟩
  simp only [Set.mem_union, Set.mem_prod, Set.mem_Icc]
  push_cast
  constructor
  · rintro (⟨⟨h1, h2⟩, h3, h4⟩ | ⟨⟨h1, h2⟩, h3, h4⟩) <;> exact ⟨⟨h1, h2⟩, by linarith, by linarith⟩
  · rintro ⟨⟨h1, h2⟩, h3, h4⟩
    rcases le_total b 1 with h | h
    · exact .inl ⟨⟨h1, h2⟩, h3, h⟩
    · exact .inr ⟨⟨h1, h2⟩, h, h4⟩

theorem row_noOverlap : NoOverlap (2, 3) (flVals (flList rowX : List (Fl rnd))) (flVals (flList rowY : List (Fl rnd))) := by
  intro j hj k hk hjk
  rw [row_cell j hj, row_cell k hk]
  rcases (show j = 0 ∨ j = 1 by simp [cellCount] at hj; omega) with rfl | rfl <;>
  rcases (show k = 0 ∨ k = 1 by simp [cellCount] at hk; omega) with rfl | rfl
  · exact absurd rfl hjk
  · rw [if_pos rfl, if_neg (by decide), ex_box (by decide) (by decide), ex_box (by decide) (by decide), ex_inter, area_box (by norm_num) (by norm_num)]
    norm_num
  · rw [if_neg (by decide), if_pos rfl, ex_box (by decide) (by decide), ex_box (by decide) (by decide), ex_inter, area_box (by norm_num) (by norm_num)]
    norm_num
  · exact absurd rfl hjk

/-- The density `x` on a square cut into two rows, interpolated in double precision to two columns. -/
example : ∃ (o' : Interp (Fl (nearest 53))) (d' : List (Fl (nearest 53))), o'.apply [⟨1⟩, ⟨1⟩] [⟨0⟩, ⟨0⟩] = .ok d' ∧
    setAndCompute (nearGels (nearest 53)) flSort .keptBuffer
      { src := none, dst := none, weights := [], it := none, it2 := none } (3, 2) (flList colX) (flList colY) (2, 3) (0, 0) (flList rowX)
      (flList rowY) = .ok o' ∧ |(d'.getD 0 0).val - 1 / 2| ≤ 3 + 1 / 10 ^ 9 := by
  have hbig : ∀ i < cellCount (3, 2), 1 / 1000 ≤ area (quadRegion (gridCell (3, 2) (flVals (flList colX : List (Fl (nearest 53))))
      (flVals (flList colY : List (Fl (nearest 53)))) i)) := fun i hi => by rw [(col_cells i hi).2.2]; norm_num
  have hsafe : ∀ i < cellCount (3, 2), ∀ j < cellCount (2, 3), SafeCells (2 ^ (-(53 : ℤ))) (2 ^ (-(52 : ℤ))) (1 / 4) 2 16
      (gridCell (3, 2) (flVals (flList colX : List (Fl (nearest 53)))) (flVals (flList colY : List (Fl (nearest 53)))) i)
      (gridCell (2, 3) (flVals (flList rowX : List (Fl (nearest 53)))) (flVals (flList rowY : List (Fl (nearest 53)))) j) :=
    fun i hi j hj => ⟨(col_row_pairs i hi j hj).1, (col_cells i hi).1, (col_cells i hi).2.1, (col_row_pairs i hi j hj).2, (cellError_double (hbig i hi)).1⟩
  obtain ⟨o', h⟩ := C111_exists (solvesFinely_double nearGels_double) fineBy_cross flSort flSort_ok (3, 2) (2, 3) (0, 0)
    (flList colX) (flList colY) (flList rowX) (flList rowY) (by decide) (by decide) (by simp [flList, colX]) (by simp [flList, colY])
    (by simp [flList, rowX]) (by simp [flList, rowY]) hsafe (by decide) (fun i hi j hj => Or.inl (by rw [col_row_area i hi j hj]; norm_num))
    { src := none, dst := none, weights := [], it := none, it2 := none }
  have hint : IntegrableOn (fun p : ℝ × ℝ => p.1) (gridRegion (2, 3) (flVals (flList rowX : List (Fl (nearest 53)))) (flVals (flList rowY : List (Fl (nearest 53))))) := by
    rw [row_region]
    exact continuous_fst.continuousOn.integrableOn_compact (isCompact_Icc.prod isCompact_Icc)
  obtain ⟨d', e, hv⟩ := C156_value (solvesFinely_double nearGels_double) fineBy_cross flSort flSort_ok (3, 2) (2, 3) (0, 0)
    (flList colX) (flList colY) (flList rowX) (flList rowY) (by decide) (by decide) (by simp [flList, colX]) (by simp [flList, colY])
    (by simp [flList, rowX]) (by simp [flList, rowY]) hsafe (by decide) _ o' rfl h [⟨1⟩, ⟨1⟩] [⟨0⟩, ⟨0⟩] (by decide) (by decide) row_noOverlap
    (fun p => p.1) hint 0 row_density.1 2 1 row_density.2.1 row_density.2.2
  refine ⟨o', d', e, h, ?_⟩
  have hcell : quadRegion (gridCell (3, 2) (flVals (flList colX : List (Fl (nearest 53)))) (flVals (flList colY : List (Fl (nearest 53)))) 0) =
      Set.Icc (0 : ℝ) 1 ×ˢ Set.Icc (0 : ℝ) 2 := by
    rw [col_cell 0 (by decide), if_pos rfl, ex_box (by decide) (by decide)]
    push_cast
    rfl
  have h1 := hv 0 (by decide) (by
    rw [hcell, row_region]
    exact Set.prod_mono (Set.Icc_subset_Icc_right (by norm_num)) le_rfl) (1 / 2, 1) (by
    rw [hcell]
    simp only [Set.mem_prod, Set.mem_Icc]
    norm_num)
  refine h1.trans ?_
  have hce := (cellError_double (hbig 0 (by decide))).2
  rw [(col_cells 0 (by decide)).2.2] at hce
  have hce' : cellError (2 ^ (-(53 : ℤ))) (2 ^ (-(52 : ℤ))) (1 / 4) 2 16
      (gridCell (3, 2) (flVals (flList colX : List (Fl (nearest 53)))) (flVals (flList colY : List (Fl (nearest 53)))) 0) ≤ 2 / 10 ^ 11 := by
    unfold cellError
    rw [(col_cells 0 (by decide)).2.2]
    refine hce.trans (by norm_num)
  set E := cellError (2 ^ (-(53 : ℤ))) (2 ^ (-(52 : ℤ))) (1 / 4) 2 16
      (gridCell (3, 2) (flVals (flList colX : List (Fl (nearest 53)))) (flVals (flList colY : List (Fl (nearest 53)))) 0) with hE
  have hfr : ∀ j ∈ Finset.range 2, overlapFraction (gridCell (3, 2) (flVals (flList colX : List (Fl (nearest 53)))) (flVals (flList colY : List (Fl (nearest 53)))) 0)
      (gridCell (2, 3) (flVals (flList rowX : List (Fl (nearest 53)))) (flVals (flList rowY : List (Fl (nearest 53)))) j) = 1 / 2 := by
    intro j hj
    rw [overlapFraction, col_row_area 0 (by decide) j (Finset.mem_range.1 hj), (col_cells 0 (by decide)).2.2]
  have hc2 : cellCount (2, 3) = 2 := rfl
  rw [hc2]
  unfold valueError dotError
  rw [Finset.sum_range_succ, Finset.sum_range_one, Finset.sum_range_succ, Finset.sum_range_one]
  beta_reduce
  rw [hfr 0 (by decide), hfr 1 (by decide)]
  have g0 : (([⟨1⟩, ⟨1⟩] : List (Fl (nearest 53))).getD 0 0).val = 1 := rfl
  have g1 : (([⟨1⟩, ⟨1⟩] : List (Fl (nearest 53))).getD 1 0).val = 1 := rfl
  rw [g0, g1, abs_one]
  norm_num at hce' ⊢
  nlinarith

end Sg.Props
