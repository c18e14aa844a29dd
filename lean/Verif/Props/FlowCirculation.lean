import Verif.Spec.LoopCirculation
import Verif.Props.FlowReverse
import Verif.Props.FlowAccuracy
/-
Property C143: the total flow of closed lines.
`g` is the linear algebra library, `srt` is `std::sort` and `pert` the perturbation of the nodes of the line.
-/
namespace Sg.Props
open Sg Sg.FlowInterp Sg.QuadIntersect Sg.QuadFlows Sg.LinearSolve Sg.Triangulate Sg.FindPoint Sg.QuadLine Sg.Spec Sg.Plane MeasureTheory

/-- Edge data without circulation round any cell are the differences of nodal values. -/
theorem potential_of_irrotational {n0 n1 : Nat} {x y : List ℝ} (hxl : (n0 - 1) * n1 ≤ x.length) (hyl : n0 * (n1 - 1) ≤ y.length)
    (h : ∀ i < n0 - 1, ∀ j < n1 - 1, cellCirculation n1 x y i j = 0) : ∃ phi, PotentialData n0 n1 phi x y := by
  refine ⟨fun i j => ∑ k ∈ Finset.range i, x.getD (xEdge n1 k 0) 0 + ∑ l ∈ Finset.range j, y.getD (yEdge n1 i l) 0, hxl, hyl, ?_, ?_⟩
  · intro i j hi hj
    have key : ∀ m ≤ n1 - 1, x.getD (xEdge n1 i m) 0 = x.getD (xEdge n1 i 0) 0 +
        (∑ l ∈ Finset.range m, y.getD (yEdge n1 (i + 1) l) 0 - ∑ l ∈ Finset.range m, y.getD (yEdge n1 i l) 0) := by
      intro m
      induction m with
      | zero => intro _; simp
      | succ m ih =>
        intro hm
        have := h i hi m (by omega)
        unfold cellCirculation at this
        rw [Finset.sum_range_succ, Finset.sum_range_succ]
        have := ih (by omega)
        linarith
    rw [key j (by omega), Finset.sum_range_succ]
    ring
  · intro i j hi hj
    rw [Finset.sum_range_succ]
    ring

/-- **C143**, in real numbers, on a sheared product grid: for edge data without circulation round any cell, the total flow of a line depends on its first and last node
(as stored) only; it is zero if these are the same.  All segments are to be good (in the grid, not along a grid line inside it, clear of the tolerance). -/
theorem C143_path (g : Gels ℝ) (hg : GelsContract g) (srt : List ℝ → List ℝ)
    (hsrt : ∀ l, SortsTo l (srt l)) (n0 n1 : Nat) (h0 : 2 ≤ n0) (h1 : 2 ≤ n1) (hf : n0 * n1 ≤ 1073741824) (xs ys : List ℝ)
    (hx : n0 * n1 ≤ xs.length) (hy : n0 * n1 ≤ ys.length) (X Y : Nat → ℝ) (c e0 e1 : ℝ × ℝ) (hT : TensorGrid n0 n1 X Y c e0 e1 xs ys)
    (x y : List ℝ) (hxl : (n0 - 1) * n1 ≤ x.length) (hyl : n0 * (n1 - 1) ≤ y.length)
    (hcurl : ∀ i < n0 - 1, ∀ j < n1 - 1, cellCirculation n1 x y i j = 0) :
    ∃ Φ : ℝ × ℝ → ℝ, ∀ (pert : Nat → Nat → Nat → ℝ) (n : Nat) (us vs : List ℝ), 1 ≤ n → n ≤ us.length → n ≤ vs.length → ∀ U V : Nat → ℝ,
      (∀ k < n, movedNode pert n us vs k = c + U k • e0 + V k • e1 ∧ (X 0 ≤ U k ∧ U k ≤ X (n0 - 1)) ∧ Y 0 ≤ V k ∧ V k ≤ Y (n1 - 1)) →
      (∀ k < n - 1, GoodSegment n0 n1 X Y xs ys (movedNode pert n us vs k) (movedNode pert n us vs (k + 1)) (U k) (V k) (U (k + 1)) (V (k + 1))) →
      ∀ d : List ℝ, n - 1 ≤ d.length →
        ∃ d', flowWith pert g srt [] n0 n1 xs ys n us vs 1 x y d = .ok d' ∧
          (d'.take (n - 1)).sum = Φ (movedNode pert n us vs (n - 1)) - Φ (movedNode pert n us vs 0) := by
  obtain ⟨phi, hp⟩ := potential_of_irrotational hxl hyl hcurl
  refine ⟨fun p => tensorInterp n0 n1 X Y phi (uOf c e0 e1 p) (vOf c e0 e1 p), fun pert n us vs hn hu hv U V hUV hgood d hd => ?_⟩
  obtain ⟨d', e, hs, -⟩ := C70_loop pert g hg srt hsrt n0 n1 h0 h1 hf xs ys hx hy n hn us vs hu hv X Y c e0 e1 hT phi x y hp d hd U V
    (fun k hk => (hUV k hk).1) (fun k hk => (hUV k hk).2) (fun k hk => (hgood k hk).along) (fun k hk => (hgood k hk).clear)
  refine ⟨d', e, ?_⟩
  rw [hs, (hUV (n - 1) (by omega)).1, (hUV 0 (by omega)).1]
  simp only [(uv_point hT.det _ _).1, (uv_point hT.det _ _).2]

/-- The total of flows given one by one. -/
theorem take_sum {d : List ℝ} {F : Nat → ℝ} : ∀ {m : Nat}, (∀ k < m, d[k]? = some (F k)) → (d.take m).sum = ∑ k ∈ Finset.range m, F k
  | 0, _ => by simp
  | m + 1, h => by
    rw [Finset.sum_range_succ, ← take_sum (fun k hk => h k (by omega)), List.take_add_one, h m (by omega)]
    simp

/-- The integral of the field along a segment in the cell: what belongs to its ends and to the area swept. -/
theorem fieldIntegral_swept {q : Quad ℝ} (hq : Parallelogram q) (E : Fin 4 → ℝ) {a b : P2} (ha : a ∈ quadRegion q) (hb : b ∈ quadRegion q) :
    ∃ P : P2 → ℝ, (∀ p, P p = E 0 * (cellVector q (p - q 0)).1 + E 2 * (cellVector q (p - q 0)).2 +
        (E 1 - E 0 + (E 3 - E 2)) / 2 * ((cellVector q (p - q 0)).1 * (cellVector q (p - q 0)).2)) ∧
      fieldIntegral q E a b = P b - P a + (E 0 + E 3 - E 1 - E 2) *
        (((a - q 0).1 * (b - q 0).2 - (b - q 0).1 * (a - q 0).2) / 2 / cellArea q) := by
  refine ⟨_, fun p => rfl, ?_⟩
  have hI : insideParams q a b = Set.Icc 0 1 := by
    ext t
    constructor
    · rintro ⟨h0, h1, -⟩; exact ⟨h0, h1⟩
    · rintro ⟨h0, h1⟩
      exact ⟨h0, h1, (convex_convexHull ℝ _).segment_subset ha hb (mem_segment_iff.2 ⟨t, h0, h1, rfl⟩)⟩
  have hdet : cellArea q ≠ 0 := by
    intro hz
    refine hq.area ?_
    rw [← hz]; unfold cellArea; ring
  unfold fieldIntegral
  rw [hI]
  simp only [edgeField_line]
  rw [integral_Icc_linear zero_le_one]
  have hab : b - a = (b - q 0) - (a - q 0) := by abel
  have hw : cellVector q (b - a) = cellVector q (b - q 0) - cellVector q (a - q 0) := by
    rw [hab]
    generalize b - q 0 = u
    generalize a - q 0 = v
    unfold cellVector
    refine Prod.ext ?_ ?_ <;> (simp only [Prod.fst_sub, Prod.snd_sub]; rw [← sub_div]; congr 1; ring)
  have hcross : ((a - q 0).1 * (b - q 0).2 - (b - q 0).1 * (a - q 0).2) / cellArea q =
      (cellVector q (a - q 0)).1 * (cellVector q (b - q 0)).2 - (cellVector q (b - q 0)).1 * (cellVector q (a - q 0)).2 := by
    generalize b - q 0 = u
    generalize a - q 0 = v
    have hD : (q 1 - q 0).1 * (q 3 - q 0).2 - (q 1 - q 0).2 * (q 3 - q 0).1 = cellArea q := rfl
    simp only [cellVector, hD]
    rw [div_mul_div_comm, div_mul_div_comm, ← sub_div, div_eq_div_iff hdet (mul_ne_zero hdet hdet)]
    rw [← hD]
    ring
  have hx0 : coordX q a 0 = (cellVector q (a - q 0)).1 := by unfold coordX; rw [if_pos rfl]
  have hx1 : coordX q a 1 = (cellVector q (a - q 0)).2 := by unfold coordX; rw [if_neg (by decide)]
  rw [div_right_comm, hcross]
  unfold coef0 coef1
  rw [hx0, hx1, hw]
  simp only [Prod.fst_sub, Prod.snd_sub]
  ring

theorem fieldIntegral_point {q : Quad ℝ} (E : Fin 4 → ℝ) {a b : P2} (h : (insideParams q a b).Subsingleton) : fieldIntegral q E a b = 0 := by
  unfold fieldIntegral
  exact setIntegral_measure_zero _ (h.measure_zero volume)

/-- **C143**, in real numbers, cells that are parallelograms, any edge data: the total flow of a closed line (as stored) in cell `(i, j)` is the circulation of the
data round the cell times the share of the cell that the line encloses (by the shoelace formula: counted with sign, and more than once if the line goes round more than
once).  The segments are to be clear of the tolerance and to have no more than a point in other cells. -/
theorem C143_cell (pert : Nat → Nat → Nat → ℝ) (g : Gels ℝ) (hg : GelsContract g) (srt : List ℝ → List ℝ)
    (hsrt : ∀ l, SortsTo l (srt l)) (n0 n1 : Nat) (h0 : 2 ≤ n0) (h1 : 2 ≤ n1) (hf : n0 * n1 ≤ 1073741824) (xs ys : List ℝ)
    (hx : n0 * n1 ≤ xs.length) (hy : n0 * n1 ≤ ys.length) (hpar : ∀ i < n0 - 1, ∀ j < n1 - 1, Parallelogram (gridQuad n1 xs ys i j))
    (n : Nat) (hn : 1 ≤ n) (us vs : List ℝ) (hu : n ≤ us.length) (hv : n ≤ vs.length)
    (x y : List ℝ) (hxl : (n0 - 1) * n1 ≤ x.length) (hyl : n0 * (n1 - 1) ≤ y.length) (d : List ℝ) (hd : n - 1 ≤ d.length)
    (i j : Nat) (hi : i < n0 - 1) (hj : j < n1 - 1)
    (hin : ∀ k < n, movedNode pert n us vs k ∈ quadRegion (gridQuad n1 xs ys i j))
    (hseg : ∀ k < n - 1, MetSegment n0 n1 xs ys (movedNode pert n us vs k) (movedNode pert n us vs (k + 1)))
    (hout : ∀ k < n - 1, ∀ i' < n0 - 1, ∀ j' < n1 - 1, (i', j') ≠ (i, j) →
      (insideParams (gridQuad n1 xs ys i' j') (movedNode pert n us vs k) (movedNode pert n us vs (k + 1))).Subsingleton)
    (hclosed : movedNode pert n us vs (n - 1) = movedNode pert n us vs 0) :
    ∃ d', flowWith pert g srt [] n0 n1 xs ys n us vs 1 x y d = .ok d' ∧
      (d'.take (n - 1)).sum = cellCirculation n1 x y i j * (loopArea (movedNode pert n us vs) (n - 1) / cellArea (gridQuad n1 xs ys i j)) := by
  obtain ⟨d', e, h⟩ := C79_integral_partial pert g hg srt hsrt n0 n1 h0 h1 hf xs ys hx hy n hn us vs hu hv hpar x y hxl hyl d hd
  refine ⟨d', e, ?_⟩
  set p := movedNode pert n us vs with hp
  set q := gridQuad n1 xs ys i j with hq
  set E := edgeData n1 x y i j with hE
  have hk : ∀ k < n - 1, d'[k]? = some (fieldIntegral q E (p k) (p (k + 1))) := by
    intro k hk
    rw [h k hk _ _ rfl rfl (hseg k hk).met (hseg k hk).clear]
    congr 1
    rw [Finset.sum_eq_single_of_mem i (Finset.mem_range.mpr hi), Finset.sum_eq_single_of_mem j (Finset.mem_range.mpr hj)]
    · intro j' hj' hne
      exact fieldIntegral_point _ (hout k hk i hi j' (Finset.mem_range.mp hj') (by simpa using hne))
    · intro i' hi' hne
      refine Finset.sum_eq_zero fun j' hj' => fieldIntegral_point _ (hout k hk i' (Finset.mem_range.mp hi') j' (Finset.mem_range.mp hj') ?_)
      simp [hne]
  rw [take_sum hk]
  obtain ⟨P, hP⟩ : ∃ P : P2 → ℝ, ∀ p, P p = E 0 * (cellVector q (p - q 0)).1 + E 2 * (cellVector q (p - q 0)).2 +
        (E 1 - E 0 + (E 3 - E 2)) / 2 * ((cellVector q (p - q 0)).1 * (cellVector q (p - q 0)).2) := ⟨_, fun _ => rfl⟩
  have hC : E 0 + E 3 - E 1 - E 2 = cellCirculation n1 x y i j := rfl
  have hsum : ∀ m ≤ n - 1, ∑ k ∈ Finset.range m, fieldIntegral q E (p k) (p (k + 1)) = P (p m) - P (p 0) +
      cellCirculation n1 x y i j * ((∑ k ∈ Finset.range m, ((p k).1 * (p (k + 1)).2 - (p (k + 1)).1 * (p k).2) +
        ((p m).1 - (p 0).1) * (q 0).2 - ((p m).2 - (p 0).2) * (q 0).1) / 2 / cellArea q) := by
    intro m
    induction m with
    | zero => intro _; simp
    | succ m ih =>
      intro hm
      obtain ⟨P', hP', hI⟩ := fieldIntegral_swept (hpar i hi j hj) E (hin m (by omega)) (hin (m + 1) (by omega))
      have : P' = P := funext fun z => (hP' z).trans (hP z).symm
      subst this
      rw [Finset.sum_range_succ, ih (by omega), hI, hC, Finset.sum_range_succ]
      simp only [Prod.fst_sub, Prod.snd_sub]
      ring
  rw [hsum (n - 1) le_rfl, hclosed]
  unfold loopArea
  simp

/-! ### Cases -/

/-- The nodes (0, 0), (4, 0), (4, 4), (0, 4). -/
def zLarge : Fin 4 → ℤ × ℤ := ![(0, 0), (4, 0), (4, 4), (0, 4)]

theorem large_cell : ∀ i < 1, ∀ j < 1, gridQuad 2 ([0, 0, 4, 4] : List ℝ) [0, 4, 0, 4] i j = zquad zLarge := by
  intro i hi j hj
  have : i = 0 := by omega
  have : j = 0 := by omega
  subst i j
  funext c
  fin_cases c <;> simp [gridQuad, nodePlace, cellNode, zquad, zLarge]

theorem large_inside {u v : ℝ} (hu : 0 ≤ u ∧ u ≤ 4) (hv : 0 ≤ v ∧ v ≤ 4) : ((u, v) : ℝ × ℝ) ∈ quadRegion (gridQuad 2 ([0, 0, 4, 4] : List ℝ) [0, 4, 0, 4] 0 0) := by
  have := at_region (gridQuad 2 ([0, 0, 4, 4] : List ℝ) [0, 4, 0, 4] 0 0) (x := fun k => if k = 0 then u / 4 else v / 4)
    (fun k => by dsimp only; split_ifs <;> constructor <;> linarith [hu.1, hu.2, hv.1, hv.2])
  convert this using 1
  refine Prod.ext ?_ ?_ <;> simp [at_, bilin, gridQuad, nodePlace, cellNode] <;> ring

/-- The triangle (1, 1), (3, 1), (1, 3) in a square cell of side 4, any data: the total is an eighth of the circulation. -/
example (g : Gels ℝ) (hg : GelsContract g) (srt : List ℝ → List ℝ) (hsrt : ∀ l, SortsTo l (srt l)) (a b a' b' : ℝ) :
    ∃ d', flowWith noPert g srt [] 2 2 [0, 0, 4, 4] [0, 4, 0, 4] 4 [1, 3, 1, 1] [1, 1, 3, 1] 1 [a, b] [a', b'] [7, 7, 7] = .ok d' ∧
      (d'.take 3).sum = (a + b' - b - a') * (1 / 8) := by
  have hm : ∀ k, movedNode noPert 4 ([1, 3, 1, 1] : List ℝ) [1, 1, 3, 1] k = (([1, 3, 1, 1] : List ℝ).getD k 0, ([1, 1, 3, 1] : List ℝ).getD k 0) := by
    intro k; simp [movedNode, noPert]
  have hin : ∀ k < 4, movedNode noPert 4 ([1, 3, 1, 1] : List ℝ) [1, 1, 3, 1] k ∈ quadRegion (gridQuad 2 ([0, 0, 4, 4] : List ℝ) [0, 4, 0, 4] 0 0) := by
    intro k hk
    rw [hm]
    interval_cases k <;> simp <;> exact large_inside (by norm_num) (by norm_num)
  obtain ⟨d', e, h⟩ := C143_cell noPert g hg srt hsrt 2 2 (by norm_num) (by norm_num) (by norm_num) [0, 0, 4, 4] [0, 4, 0, 4] (by simp) (by simp)
    (by
      intro i hi j hj
      rw [large_cell i hi j hj]
      constructor <;> simp [zquad, zLarge])
    4 (by norm_num) [1, 3, 1, 1] [1, 1, 3, 1] (by simp) (by simp) [a, b] [a', b'] (by simp) (by simp) [7, 7, 7] (by simp) 0 0 (by norm_num) (by norm_num) hin
    (by
      intro k hk
      constructor
      · refine ⟨0, by norm_num, 0, by norm_num, 0, ⟨le_rfl, zero_le_one, ?_⟩, 1, ⟨zero_le_one, le_rfl, ?_⟩, zero_ne_one⟩
        · rw [zero_smul, add_zero]; exact hin k (by omega)
        · rw [one_smul, add_sub_cancel]; exact hin (k + 1) (by omega)
      · intro i hi j hj
        rw [large_cell i hi j hj, hm, hm]
        have key := clearLine_int (z := zLarge) (by decide) (by decide)
        have : k < 3 := hk
        interval_cases k
        · simpa using key (1, 1) (3, 1) (by norm_num) (by norm_num) (Or.inl (by decide))
        · simpa using key (3, 1) (1, 3) (by norm_num) (by norm_num) (Or.inl (by decide))
        · simpa using key (1, 3) (1, 1) (by norm_num) (by norm_num) (Or.inl (by decide)))
    (by
      intro k hk i' hi' j' hj' hne
      exact absurd (by rw [show i' = 0 by omega, show j' = 0 by omega]) hne)
    (by rw [hm, hm]; simp)
  refine ⟨d', e, h.trans ?_⟩
  simp only [cellCirculation, loopArea, cellArea, hm, xEdge, yEdge]
  rw [large_cell 0 (by norm_num) 0 (by norm_num)]
  have hA : ((zLarge 3).2 : ℝ) = 4 := by simp [zLarge]
  have hB : ((zLarge 3).1 : ℝ) = 0 := by simp [zLarge]
  have hC : ((zLarge 1).1 : ℝ) = 4 := by simp [zLarge]
  have hD : ((zLarge 1).2 : ℝ) = 0 := by simp [zLarge]
  have hE : ((zLarge 0).1 : ℝ) = 0 := by simp [zLarge]
  have hF : ((zLarge 0).2 : ℝ) = 0 := by simp [zLarge]
  simp only [zquad, hA, hB, hC, hD, hE, hF]
  norm_num [Finset.sum_range_succ]

/-- Data without circulation: 1 along the first axis, 2 along the second. -/
example (g : Gels ℝ) (hg : GelsContract g) (srt : List ℝ → List ℝ) (hsrt : ∀ l, SortsTo l (srt l)) :
    ∃ Φ : ℝ × ℝ → ℝ, ∃ d', flowWith noPert g srt [] 3 3 [0, 0, 0, 1, 1, 1, 2, 2, 2] [0, 1, 2, 0, 1, 2, 0, 1, 2] 2 [0, 2] [0, 1] 1 [1, 1, 1, 1, 1, 1] [2, 2, 2, 2, 2, 2]
      [7] = .ok d' ∧ (d'.take 1).sum = Φ (2, 1) - Φ (0, 0) := by
  obtain ⟨Φ, h⟩ := C143_path g hg srt hsrt 3 3 (by norm_num) (by norm_num) (by norm_num) _ _ (by simp) (by simp) _ _ _ _ _ square_tensor
    [1, 1, 1, 1, 1, 1] [2, 2, 2, 2, 2, 2] (by simp) (by simp) (by
      intro i hi j hj
      norm_num at hi hj
      interval_cases i <;> interval_cases j <;> simp [cellCirculation, xEdge, yEdge])
  obtain ⟨d', e, hs⟩ := h noPert 2 [0, 2] [0, 1] (by norm_num) (by simp) (by simp) (fun k => 2 * k) (fun k => k)
    (by intro k hk; interval_cases k <;> simp [movedNode, noPert])
    (by
      intro k hk
      have : k = 0 := by omega
      subst this
      simpa [movedNode, noPert] using ex_good) [7] (by simp)
  exact ⟨Φ, d', e, by simpa [movedNode, noPert] using hs⟩

end Sg.Props
