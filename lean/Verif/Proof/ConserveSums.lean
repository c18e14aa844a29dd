import Verif.Proof.ConserveExact
import Verif.Proof.ConserveApply
import Mathlib.Algebra.BigOperators.Group.Finset.Sigma
import Mathlib.Algebra.BigOperators.Ring.Finset
/- Sums of weights and of areas. -/
namespace Sg.Conserve
open Sg.LinearSolve Sg.Triangulate Sg.QuadIntersect Sg.Spec Sg.Plane Sg.Props MeasureTheory

/-- Areas of parts that do not overlap add up. -/
theorem area_parts {A : Set P2} (hA : IsCompact A) (R : Nat → Set P2) (hR : ∀ j, IsCompact (R j)) (n : Nat)
    (hdis : ∀ j < n, ∀ k < n, j ≠ k → area (R j ∩ R k) = 0) :
    area (A ∩ ⋃ j ∈ Finset.range n, R j) = ∑ j ∈ Finset.range n, area (A ∩ R j) := by
  have hfin : ∀ j, volume (A ∩ R j) ≠ ⊤ := fun j => (hA.inter (hR j)).measure_lt_top.ne
  unfold area
  rw [Set.inter_iUnion₂, measure_biUnion_finset₀, ENNReal.toReal_sum fun j _ => hfin j]
  · intro j hj k hk hjk
    have hj' : j < n := Finset.mem_range.mp hj
    have hk' : k < n := Finset.mem_range.mp hk
    have h0 : volume (R j ∩ R k) = 0 := by
      rcases (ENNReal.toReal_eq_zero_iff _).mp (hdis j hj' k hk' hjk) with h | h
      · exact h
      · exact absurd h ((hR j).inter (hR k)).measure_lt_top.ne
    exact measure_mono_null (show (A ∩ R j) ∩ (A ∩ R k) ⊆ R j ∩ R k from fun x hx => ⟨hx.1.2, hx.2.2⟩) h0
  · intro j _
    exact ((hA.inter (hR j)).isClosed.measurableSet).nullMeasurableSet

section
set_option linter.unusedSectionVars false
variable {K : Type} [Field K] [LinearOrder K]

theorem lookup_cons_getD {k : Nat} {w : K} {l : List (Nat × K)} (h : ∀ e ∈ l, k < e.1) (j : Nat) :
    (List.lookup j ((k, w) :: l)).getD 0 = (if j = k then w else 0) + (l.lookup j).getD 0 := by
  by_cases hjk : j = k
  · subst hjk
    have : l.lookup j = none := by
      rw [List.lookup_eq_none_iff]
      intro e he
      have := h e he
      simp; omega
    rw [List.lookup_cons_self, this, if_pos rfl]
    simp
  · rw [List.lookup_cons, beq_false_of_ne hjk, if_neg hjk, zero_add]

theorem weightedSum_eq (v : Nat → K) (n : Nat) (l : List (Nat × K)) (hp : l.Pairwise fun a b => a.1 < b.1)
    (hn : ∀ e ∈ l, e.1 < n) : weightedSum v l = ∑ j ∈ Finset.range n, (l.lookup j).getD 0 * v j := by
  have key : ∀ l : List (Nat × K), l.Pairwise (fun a b => a.1 < b.1) → (∀ e ∈ l, e.1 < n) → ∀ a : K,
      l.foldl (fun acc p => acc + p.2 * v p.1) a = a + ∑ j ∈ Finset.range n, (l.lookup j).getD 0 * v j := by
    intro l
    induction l with
    | nil => intro _ _ a; simp
    | cons e l ih =>
      intro hp hn a
      obtain ⟨hh, ht⟩ := List.pairwise_cons.mp hp
      obtain ⟨k, w⟩ := e
      rw [List.foldl_cons, ih ht fun e he => hn e (List.mem_cons_of_mem _ he)]
      have hk : k < n := hn (k, w) (List.mem_cons_self ..)
      simp only [lookup_cons_getD hh, add_mul, Finset.sum_add_distrib, ite_mul, zero_mul]
      rw [Finset.sum_ite_eq' (Finset.range n) k, if_pos (Finset.mem_range.mpr hk), add_assoc]
  have := key l hp hn 0
  rw [zero_add] at this
  exact this

end

/-- What `apply` leaves in a destination cell. -/
theorem apply_value {d s : Nat → Quad ℝ} {m n : Nat} {o : Interp ℝ} (hT : TableOk d s m n o.weights) (hn : 0 < n)
    (hconv : ∀ i < m, ConvexQuad (d i)) (srcData dstData : List ℝ) (hs : n ≤ srcData.length) (hd : m ≤ dstData.length) :
    ∃ d', o.apply srcData dstData = .ok d' ∧ d'.length = dstData.length ∧
      ∀ i < m, ((∀ j < n, area (quadRegion (d i) ∩ quadRegion (s j)) = 0) → dstData.getD i 0 = 0) →
        d'.getD i 0 = ∑ j ∈ Finset.range n, overlapFraction (d i) (s j) * srcData.getD j 0 := by
  obtain ⟨d', e, hl, hi⟩ := apply_ok o srcData dstData hT.sorted fun e he =>
    ⟨lt_of_lt_of_le (hT.lt e he) hd, fun p hp => lt_of_lt_of_le ((hT.cell e he).lt p hp) hs⟩
  refine ⟨d', e, hl, ?_⟩
  intro i him h0
  have hw : ∀ j ∈ Finset.range n, overlapFraction (d i) (s j) * srcData.getD j 0 =
      weightOf o.weights i j * srcData.getD j 0 := fun j hj => by
    rw [hT.weightOf him (Finset.mem_range.mp hj)]
  rw [Finset.sum_congr rfl hw, List.getD_eq_getElem?_getD, hi]
  cases hlk : o.weights.lookup i with
  | some l =>
    obtain ⟨l1, l2, hw', -⟩ := List.lookup_eq_some_iff.mp hlk
    have hc := hT.cell (i, l) (by rw [hw']; simp)
    show weightedSum (fun k => srcData.getD k 0) l = _
    rw [weightedSum_eq _ n l hc.sorted hc.lt]
    simp only [weightOf, hlk, Option.getD_some]
  | none =>
    have hz : ∀ j < n, area (quadRegion (d i) ∩ quadRegion (s j)) = 0 := by
      intro j hj
      have := hT.weightOf him hj
      rw [weightOf, hlk] at this
      have hq : overlapFraction (d i) (s j) = 0 := this.symm
      rw [overlapFraction, div_eq_zero_iff] at hq
      exact hq.resolve_right (area_pos (hconv i him)).ne'
    show (dstData[i]?).getD 0 = _
    rw [← List.getD_eq_getElem?_getD, h0 hz]
    simp [weightOf, hlk]

end Sg.Conserve
