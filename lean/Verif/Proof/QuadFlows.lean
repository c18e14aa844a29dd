import Verif.Model.QuadLineFlows
import Verif.Spec.Flows
import Verif.Props.FindPoint
import Mathlib.Tactic.LinearCombination
namespace Sg.QuadFlows
open Sg.LinearSolve Sg.Triangulate Sg.QuadIntersect Sg.FindPoint Sg.Spec Sg.Props

section generic
variable {F : Type} [Zero F] [One F] [Add F] [Sub F] [Mul F] [Div F] [Neg F] [LT F] [DecidableLT F]
  [LE F] [DecidableLE F] [DecidableEq F] [NatCast F] [IntCast F] [FOps F]

/-- The node values as the finder stores them. -/
def gridList {V : Type} (v : Fin 4 → V) : List V := (List.range 4).map fun j => v (gridNode j)

theorem sameGrid_refl (f : Finder F 2) : SameGrid f f := by constructor <;> rfl

theorem sameGrid_trans {a b c : Finder F 2} (h : SameGrid a b) (h' : SameGrid b c) : SameGrid a c :=
  ⟨h'.coords.trans h.coords, h'.bounds.trans h.bounds, h'.per.trans h.per, h'.dims.trans h.dims,
    h'.nitermax.trans h.nitermax, h'.tolpos.trans h.tolpos⟩

end generic

section
set_option linter.unusedSectionVars false
variable {K : Type} [Field K] [LinearOrder K] [IsStrictOrderedRing K] [FloorRing K] [FOps K] [FOpsLaws K]

theorem goodDims2 : GoodDims (fun _ : Fin 2 => 2) := fun _ => by norm_num

theorem sum_subsets (f : Finset (Fin 2) → K) : ∑ S, f S = f ∅ + f {0} + f {1} + f {0, 1} := by
  have : (Finset.univ : Finset (Finset (Fin 2))) = {∅, {0}, {1}, {0, 1}} := by decide
  rw [this, Finset.sum_insert (by decide), Finset.sum_insert (by decide), Finset.sum_insert (by decide),
    Finset.sum_singleton]
  ring

/-- Multilinear interpolation on a cell of two axes is the bilinear interpolation. -/
theorem interp_bilin (v : Fin 4 → K) (x : Fin 2 → K) (hx : InGrid (fun _ => 2) x) :
    interp (fun _ : Fin 2 => 2) x (gridList v) = .ok (bilin v x) := by
  have h := C30_multilinear_exact (K := K) (fun _ : Fin 2 => 2) goodDims2 x hx
    (fun S => if S = ∅ then v 0 else if S = {0} then v 1 - v 0 else if S = {1} then v 3 - v 0 else v 2 - v 1 - v 3 + v 0)
    (gridList v) (by simp [gridList]) (by
      intro m hm
      have hlo : ∀ i, cellLo (fun _ : Fin 2 => 2) x i = 0 := fun i => by simp [cellLo]
      have hm' : ∀ i, m i = 0 ∨ m i = 1 := fun i => by have := hm i; rw [hlo] at this; exact this
      have e : rowMajor (fun _ : Fin 2 => 2) m = m 0 * 2 + m 1 := by
        rw [rowMajor_succ, rowMajor_succ]; simp [rowMajor]
      rw [e, sum_subsets]
      rcases hm' 0 with h0 | h0 <;> rcases hm' 1 with h1 | h1 <;> rw [h0, h1] <;>
        simp [gridList, gridNode, h0, h1, show ({1} : Finset (Fin 2)) ≠ {0} by decide,
          show ({0, 1} : Finset (Fin 2)) ≠ {0} by decide, show ({0, 1} : Finset (Fin 2)) ≠ {1} by decide,
          show ({0, 1} : Finset (Fin 2)) ≠ ∅ by decide, List.range_succ] <;> ring)
  rw [h, sum_subsets]
  congr 1
  simp [bilin, show ({1} : Finset (Fin 2)) ≠ {0} by decide,
          show ({0, 1} : Finset (Fin 2)) ≠ {0} by decide, show ({0, 1} : Finset (Fin 2)) ≠ {1} by decide,
          show ({0, 1} : Finset (Fin 2)) ≠ ∅ by decide]
  ring

/-- What holds of the finder after `setQuadPoints q` and any searches. -/
structure HasQuad (q : Quad K) (f : Finder K 2) : Prop where
  ready : FindPoint.Ready f
  dims : f.dims = fun _ => 2
  coords : ∀ k, f.coords k = gridList fun i => comp (q i) k
  per : f.indexPeriodicity = fun _ => 0
  nitermax : f.nitermax = 10
  tolpos : f.tolpos = flowTol
  bounds : BoundsOK f

theorem HasQuad.same {q : Quad K} {f f' : Finder K 2} (h : HasQuad q f) (hr : FindPoint.Ready f') (hs : SameGrid f f') : HasQuad q f' := by
  refine ⟨hr, hs.dims.trans h.dims, fun k => by rw [hs.coords]; exact h.coords k, hs.per.trans h.per,
    hs.nitermax.trans h.nitermax, hs.tolpos.trans h.tolpos, ?_⟩
  intro b hb i v hv
  rw [hs.bounds] at hb
  rw [hs.coords] at hv
  exact h.bounds b hb i v hv

/-- A search on a usable grid. -/
theorem loop_good (g : Gels K) (hg : FindPoint.KeepsSizes g) : ∀ (k : Nat) (s : Finder K 2), Good s →
    InGrid s.dims s.dIndices → ∃ c s', searchLoop g k s = .ok (c, s') ∧ Good s' ∧ InGrid s'.dims s'.dIndices ∧
      SameGrid s s' ∧ s'.targetPoint = s.targetPoint ∧ (c = 1 → ∃ e, s'.getError = .ok e ∧ e < s.tolpos)
  | 0, s, h, hi => ⟨0, s, rfl, h, hi, sameGrid_refl s, rfl, by intro h; omega⟩
  | k + 1, s, h, hi => by
    obtain ⟨c1, s1, e1, h1, h2⟩ := good_next g hg (by norm_num) s h
    obtain ⟨f1, f2, f3, f4, f5, f6, f7⟩ := next_frame g s c1 s1 e1
    have hs : SameGrid s s1 := ⟨f1, f2, f7, f3, f5, f6⟩
    have hi' : InGrid s1.dims s1.dIndices := by
      rcases h2 with h2 | ⟨h2, _⟩
      · exact h2
      · rw [f3, h2]; exact hi
    unfold searchLoop
    rw [e1]
    simp only [bind, Except.bind]
    by_cases h0 : c1 = 0
    · rw [if_pos h0]
      obtain ⟨c, s', e, r1, r2, r3, r4, r5⟩ := loop_good g hg k s1 h1 hi'
      exact ⟨c, s', e, r1, r2, sameGrid_trans hs r3, r4.trans f4, fun hc => by rw [← f6]; exact r5 hc⟩
    · rw [if_neg h0]
      exact ⟨c1, s1, rfl, h1, hi', hs, f4, fun hc => (C32_status_code g s s1 c1 e1).2.2.1 hc⟩

theorem good_reset {q : Quad K} {f : Finder K 2} (h : HasQuad q f) (d t : Fin 2 → K) (hd : InGrid (fun _ => 2) d) :
    Good (f.reset d t) := by
  refine ⟨h.ready, ?_, ?_, ?_⟩
  · show GoodDims f.dims
    rw [h.dims]; exact goodDims2
  · intro i
    show (f.coords i).length = ∏ k, f.dims k
    rw [h.coords, h.dims]; simp [gridList]
  · exact okPos_of_inGrid _ goodDims2 d hd

theorem half_inGrid : InGrid (fun _ : Fin 2 => 2) (fun _ => (1 : K) / (1 + 1)) := by
  intro i
  have : (1 : K) / (1 + 1) = 1 / 2 := by norm_num
  rw [this]
  constructor <;> norm_num

/-- The error of a finder with the quadrilateral. -/
theorem error_eq {q : Quad K} {f : Finder K 2} (h : HasQuad q f) (hi : InGrid (fun _ => 2) f.dIndices) :
    f.getError = .ok (FOps.sqrt
      ((bilin (fun i => (q i).1) f.dIndices - f.targetPoint 0) ^ 2 + (bilin (fun i => (q i).2) f.dIndices - f.targetPoint 1) ^ 2)) := by
  have hp : f.getPosition = .ok (fun k => bilin (fun i => comp (q i) k) f.dIndices) :=
    forAxes_ok _ _ (fun k => by rw [h.dims, h.coords]; exact interp_bilin _ _ hi)
  unfold Finder.getError
  rw [hp]
  simp only [bind, Except.bind, pure, Except.pure, List.finRange_succ, List.finRange_zero, List.map_nil, List.map_cons,
    List.foldl_cons, List.foldl_nil]
  congr 2
  simp only [comp, Fin.succ_zero_eq_one]
  ring

/-- One search of the class. -/
theorem findIndices_ok (g : Gels K) (hg : FindPoint.KeepsSizes g) {q : Quad K} {f : Finder K 2} (h : HasQuad q f) (p : Pt K) :
    ∃ c x f', findIndices g f p = .ok (c, x, f') ∧ HasQuad q f' ∧ SameGrid f f' ∧ InGrid (fun _ => 2) x ∧
      (c = 1 → FOps.sqrt ((bilin (fun i => (q i).1) x - p.1) ^ 2 + (bilin (fun i => (q i).2) x - p.2) ^ 2) < flowTol) := by
  obtain ⟨c, s', e, h1, h2, h3, h4, h5⟩ := loop_good g hg (f.reset (fun _ => 1 / (1 + 1)) (comp p)).fuelOf
    (f.reset (fun _ => 1 / (1 + 1)) (comp p)) (good_reset h _ _ half_inGrid) (by
      show InGrid f.dims _
      rw [h.dims]; exact half_inGrid)
  have hsame : SameGrid f s' := ⟨h3.coords, h3.bounds, h3.per, h3.dims, h3.nitermax, h3.tolpos⟩
  have hq := h.same h1.ready hsame
  rw [hq.dims] at h2
  refine ⟨c, s'.dIndices, s', ?_, hq, hsame, h2, ?_⟩
  · unfold findIndices
    simp only [bind, Except.bind, pure, Except.pure] at e ⊢
    rw [e]
  · intro hc
    obtain ⟨err, he, hlt⟩ := h5 hc
    rw [error_eq hq h2, Except.ok.injEq, h4] at he
    have ht : (f.reset (fun _ => 1 / (1 + 1)) (comp p)).tolpos = flowTol := h.tolpos
    rw [ht, ← he] at hlt
    exact hlt

/-- The indices found depend on the grid only. -/
theorem findIndices_same (g : Gels K) (hg : FindPoint.KeepsSizes g) {f f' : Finder K 2} (h : FindPoint.Ready f)
    (h' : FindPoint.Ready f') (hs : SameGrid f f') (p : Pt K) (c c' x x' f1 f1') (e : findIndices g f p = .ok (c, x, f1))
    (e' : findIndices g f' p = .ok (c', x', f1')) : c = c' ∧ x = x' := by
  have hf : (f'.reset (fun _ => 1 / (1 + 1)) (comp p)).fuelOf = (f.reset (fun _ => 1 / (1 + 1)) (comp p)).fuelOf := by
    show (max f'.nitermax 1).toNat = (max f.nitermax 1).toNat
    rw [hs.nitermax]
  have hh := searchFrom_same g hg (by norm_num) f f' h h' hs (fun _ => 1 / (1 + 1)) (comp p)
    (f.reset (fun _ => 1 / (1 + 1)) (comp p)).fuelOf
  unfold findIndices at e e'
  unfold searchFrom at hh
  obtain ⟨r, h1, e⟩ := bind_ok_inv e
  obtain ⟨r', h1', e'⟩ := bind_ok_inv e'
  rw [hf] at h1'
  rw [h1, h1'] at hh
  simp only [bind, Except.bind, pure, Except.pure, Except.ok.injEq, Prod.mk.injEq] at hh e e'
  exact ⟨e.1.symm.trans (hh.1.symm.trans e'.1), e.2.1.symm.trans (hh.2.1.symm.trans e'.2.1)⟩

theorem flowTol_pos : (0 : K) < flowTol := by unfold flowTol; positivity

/-- On a parallelogram the search finds the exact index position. -/
theorem findIndices_affine (g : Gels K) (hg : GelsContract g) {q : Quad K} (f0 : Finder K 2)
    (hper : f0.indexPeriodicity = fun _ => 0) (hn : f0.nitermax = 10) (ht : f0.tolpos = flowTol)
    (h1 : (q 0).1 + (q 2).1 = (q 1).1 + (q 3).1) (h2 : (q 0).2 + (q 2).2 = (q 1).2 + (q 3).2)
    (hdet : ((q 1).1 - (q 0).1) * ((q 3).2 - (q 0).2) - ((q 3).1 - (q 0).1) * ((q 1).2 - (q 0).2) ≠ 0)
    (t : Fin 2 → K) (hti : InGrid (fun _ => 2) t) (f : Finder K 2) (hr : FindPoint.Ready f)
    (hs : SameGrid (f0.setGrid (fun _ => 2) (fun _ => 0) (fun k j => comp (q (gridNode j)) k)) f) :
    ∃ f', findIndices g f (bilin (fun i => (q i).1) t, bilin (fun i => (q i).2) t) = .ok (1, t, f') := by
  have hks : FindPoint.KeepsSizes g := hg.sizes
  set F0 := f0.setGrid (fun _ => 2) (fun _ => 0) (fun k j => comp (q (gridNode j)) k) with hF0
  set A : Matrix (Fin 2) (Fin 2) K := !![(q 1).1 - (q 0).1, (q 3).1 - (q 0).1; (q 1).2 - (q 0).2, (q 3).2 - (q 0).2] with hA
  have hAdet : A.det ≠ 0 := by rw [hA, Matrix.det_fin_two_of]; exact hdet
  have hgrid : AffineGrid (fun _ => 2) (comp (q 0)) A (fun k j => comp (q (gridNode j)) k) := by
    intro m hm i
    have e : rowMajor (fun _ : Fin 2 => 2) m = m 0 * 2 + m 1 := by
      rw [rowMajor_succ, rowMajor_succ]; simp [rowMajor]
    rw [e]
    have b0 : m 0 = 0 ∨ m 0 = 1 := by have := hm 0; dsimp only at this; omega
    have b1 : m 1 = 0 ∨ m 1 = 1 := by have := hm 1; dsimp only at this; omega
    have e1 : (q 2).1 = (q 0).1 + ((q 1).1 - (q 0).1 + ((q 3).1 - (q 0).1)) := by linear_combination h1
    have e2 : (q 2).2 = (q 0).2 + ((q 1).2 - (q 0).2 + ((q 3).2 - (q 0).2)) := by linear_combination h2
    fin_cases i <;> rcases b0 with b0 | b0 <;> rcases b1 with b1 | b1 <;>
      simp [b0, b1, comp, gridNode, hA, Fin.sum_univ_two, e1, e2]
  obtain ⟨code, s', hn1, hd, he, hc, -⟩ := C35_affine_exact_reused g hg (by norm_num) f0 (fun _ => 2) goodDims2 (fun _ => 0)
    (fun i => .inl (by rw [hper])) _ (comp (q 0)) A hAdet hgrid (fun _ => 1 / (1 + 1)) t half_inGrid hti
  have hc1 : code = 1 := hc (by omega) (by rw [ht]; exact flowTol_pos)
  subst hc1
  have htp : (fun i => comp (q 0) i + ∑ j, A i j * t j) = comp (bilin (fun i => (q i).1) t, bilin (fun i => (q i).2) t) := by
    funext i
    fin_cases i
    · simp only [comp, hA, Fin.sum_univ_two, bilin]
      simp
      linear_combination (- t 0 * t 1) * h1
    · simp only [comp, hA, Fin.sum_univ_two, bilin]
      simp
      linear_combination (- t 0 * t 1) * h2
  rw [htp] at hn1
  set p := (bilin (fun i => (q i).1) t, bilin (fun i => (q i).2) t) with hp
  have hfuel : (f.reset (fun _ => 1 / (1 + 1)) (comp p)).fuelOf = 9 + 1 := by
    show (max f.nitermax 1).toNat = _
    rw [hs.nitermax]
    show (max f0.nitermax 1).toNat = _
    rw [hn]; rfl
  have hl : searchLoop g (9 + 1) (F0.reset (fun _ => 1 / (1 + 1)) (comp p)) = .ok (1, s') := by
    unfold searchLoop
    rw [hn1]; rfl
  have hh := searchFrom_same g hks (by norm_num) F0 f (ready_setGrid _ _ _ _) hr hs (fun _ => 1 / (1 + 1)) (comp p) (9 + 1)
  unfold searchFrom at hh
  rw [hl] at hh
  cases h : searchLoop g (9 + 1) (f.reset (fun _ => 1 / (1 + 1)) (comp p)) with
  | error e => rw [h] at hh; cases hh
  | ok r =>
    rw [h] at hh
    simp only [bind, Except.bind, pure, Except.pure, Except.ok.injEq, Prod.mk.injEq] at hh
    refine ⟨r.2, ?_⟩
    unfold findIndices
    simp only [bind, Except.bind, pure, Except.pure]
    rw [hfuel, h]
    dsimp only
    rw [hh.1, hh.2.1, hd]

/-! ### Projections -/

/-- The projections reproduce differences of the bilinear interpolant. -/
theorem proj_potential (xa xb : Fin 2 → K) (v : Fin 4 → K) :
    flowDot (projOf xa xb) (edgeDiff v) = bilin v xb - bilin v xa := by
  simp only [flowDot, projOf, edgeDiff, bilin]
  have : (1 : K) / (1 + 1) = 1 / 2 := by norm_num
  rw [this]
  ring

theorem proj_reverse (xa xb : Fin 2 → K) (e : Fin 4) : projOf xb xa e = - projOf xa xb e := by
  fin_cases e <;> simp only [projOf] <;> ring

/-- Index positions on a straight line. -/
theorem proj_split (xa xb xm : Fin 2 → K) (t : K) (h : ∀ k, xm k = xa k + t * (xb k - xa k)) (e : Fin 4) :
    projOf xa xb e = projOf xa xm e + projOf xm xb e := by
  have h2 : (1 : K) / (1 + 1) = 1 / 2 := by norm_num
  fin_cases e <;> simp only [projOf, h 0, h 1, h2] <;> ring

end
end Sg.QuadFlows
