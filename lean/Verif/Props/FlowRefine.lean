import Verif.Spec.Refine
import Verif.Proof.CellsInt
import Verif.Props.FlowReverse
import Verif.Props.FlowCirculation
/-
Property C145: flows on a source grid whose cells are cut into parts.
`g` is the linear algebra library, `srt` is `std::sort` and `pert` the perturbation of the nodes of the line.
-/
namespace Sg.Props
open Sg Sg.FlowInterp Sg.QuadIntersect Sg.QuadFlows Sg.LinearSolve Sg.Triangulate Sg.FindPoint Sg.QuadLine Sg.Spec Sg.Plane MeasureTheory

theorem edgeIntegral_eq (q : Quad ℝ) (E : Fin 4 → ℝ) (a b : P2) : edgeIntegral q E a b = coef0 q E a b + coef1 q E a b / 2 := by
  unfold edgeIntegral
  rw [intervalIntegral.integral_of_le zero_le_one, ← integral_Icc_eq_integral_Ioc]
  simp only [edgeField_line]
  rw [integral_Icc_linear zero_le_one]
  ring

theorem cellVector_sub (q : Quad ℝ) (u v : P2) : cellVector q (u - v) = cellVector q u - cellVector q v := by
  unfold cellVector
  refine Prod.ext ?_ ?_ <;> (simp only [Prod.fst_sub, Prod.snd_sub]; rw [← sub_div]; congr 1; ring)

/-- The field of a part with parallel sides, from the integrals along its edges, is the field. -/
theorem edgeField_part {q q' : Quad ℝ} {E E' : Fin 4 → ℝ} (hq : Parallelogram q) (hq' : Parallelogram q') (hp : ParallelSides q q') (hE : SameField q E q' E')
    (p w : P2) : edgeField q' E' p w = edgeField q E p w := by
  obtain ⟨r, s, hr, hs, h1, h3⟩ := hp
  have hd : (q 1 - q 0).1 * (q 3 - q 0).2 - (q 1 - q 0).2 * (q 3 - q 0).1 ≠ 0 := by
    have := hq.area
    simp only [Prod.fst_sub, Prod.snd_sub]
    intro h; apply this; linear_combination h
  -- the coordinates in the part
  have hv : ∀ w : P2, cellVector q' w = ((cellVector q w).1 / r, (cellVector q w).2 / s) := by
    intro w
    simp only [cellVector, h1, h3, Prod.smul_fst, Prod.smul_snd, smul_eq_mul]
    generalize (q 1 - q 0).1 = a at *
    generalize (q 1 - q 0).2 = b at *
    generalize (q 3 - q 0).1 = c at *
    generalize (q 3 - q 0).2 = e at *
    have hrs : r * a * (s * e) - r * b * (s * c) ≠ 0 := by
      have : r * a * (s * e) - r * b * (s * c) = r * s * (a * e - b * c) := by ring
      rw [this]; exact mul_ne_zero (mul_ne_zero hr hs) hd
    refine Prod.ext ?_ ?_
    · dsimp only; rw [div_div, div_eq_div_iff hrs (mul_ne_zero hd hr)]; ring
    · dsimp only; rw [div_div, div_eq_div_iff hrs (mul_ne_zero hd hs)]; ring
  have c1 : cellVector q (q 1 - q 0) = (1, 0) := by
    unfold cellVector
    refine Prod.ext (div_self hd) ?_
    dsimp only
    rw [mul_comm (q 1 - q 0).1, sub_self, zero_div]
  have c3 : cellVector q (q 3 - q 0) = (0, 1) := by
    unfold cellVector
    refine Prod.ext ?_ (by dsimp only; rw [div_self hd])
    dsimp only
    rw [mul_comm (q 3 - q 0).1, sub_self, zero_div]
  have e2 : q' 2 - q' 3 = q' 1 - q' 0 := by
    have a := hq'.fst
    have b := hq'.snd
    ext <;> simp <;> linarith
  have e2' : q' 2 - q' 1 = q' 3 - q' 0 := by
    have a := hq'.fst
    have b := hq'.snd
    ext <;> simp <;> linarith
  have w1 : cellVector q (q' 1 - q' 0) = (r, 0) := by rw [h1, cellVector_smul, c1]; simp
  have w3 : cellVector q (q' 3 - q' 0) = (0, s) := by rw [h3, cellVector_smul, c3]; simp
  have o1 : cellVector q (q' 1 - q 0) = cellVector q (q' 0 - q 0) + (r, 0) := by
    rw [← w1, show q' 1 - q' 0 = (q' 1 - q 0) - (q' 0 - q 0) by abel, cellVector_sub q (q' 1 - q 0)]; abel
  have o3 : cellVector q (q' 3 - q 0) = cellVector q (q' 0 - q 0) + (0, s) := by
    rw [← w3, show q' 3 - q' 0 = (q' 3 - q 0) - (q' 0 - q 0) by abel, cellVector_sub q (q' 3 - q 0)]; abel
  have x0 : ∀ z, coordX q z 0 = (cellVector q (z - q 0)).1 := fun z => by unfold coordX; rw [if_pos rfl]
  have x1 : ∀ z, coordX q z 1 = (cellVector q (z - q 0)).2 := fun z => by unfold coordX; rw [if_neg (by decide)]
  have hp0 : cellVector q (p - q' 0) = cellVector q (p - q 0) - cellVector q (q' 0 - q 0) := by
    rw [← cellVector_sub]; congr 1; abel
  unfold edgeField
  dsimp only
  rw [hv, hv, hp0, hE.lower, hE.upper, hE.left, hE.right]
  simp only [edgeIntegral_eq, coef0, coef1, x0, x1, e2, e2', w1, w3, o1, o3, Prod.fst_sub, Prod.snd_sub, Prod.fst_add, Prod.snd_add]
  field_simp
  ring

/-- The integral along the part of a segment in a cell, from the parts of the cell. -/
theorem fieldIntegral_owned {n n' : Nat} {q q' : Nat → Quad ℝ} {owner : Nat → Nat} (h : Refines n q n' q' owner) {a b : P2}
    (honce : ∀ k < n', ∀ l < n', k ≠ l → (insideParams (q' k) a b ∩ insideParams (q' l) a b).Subsingleton) (E : Fin 4 → ℝ) (i : Nat) (hi : i < n) :
    fieldIntegral (q i) E a b = ∑ k ∈ (Finset.range n').filter (fun k => owner k = i), ∫ t in insideParams (q' k) a b, edgeField (q i) E (a + t • (b - a)) (b - a) := by
  have hI : insideParams (q i) a b = ⋃ k ∈ (Finset.range n').filter (fun k => owner k = i), insideParams (q' k) a b := by
    ext t
    unfold insideParams
    rw [h.made i hi]
    simp only [Set.mem_ofPred_eq, Set.mem_iUnion, exists_prop]
    constructor
    · rintro ⟨h0, h1, k, hk, ht⟩; exact ⟨k, hk, h0, h1, ht⟩
    · rintro ⟨k, hk, h0, h1, ht⟩; exact ⟨h0, h1, k, hk, ht⟩
  unfold fieldIntegral
  rw [hI]
  have hm : ∀ k, MeasurableSet (insideParams (q' k) a b) := fun k => (inside_compact _ a b).isClosed.measurableSet
  have hc : Continuous fun t : ℝ => edgeField (q i) E (a + t • (b - a)) (b - a) := by
    simp only [edgeField_line]; fun_prop
  set S := (Finset.range n').filter (fun k => owner k = i) with hS
  have hU : IsCompact (⋃ k ∈ S, insideParams (q' k) a b) := S.isCompact_biUnion fun k _ => inside_compact _ a b
  have hint : IntegrableOn (fun t : ℝ => edgeField (q i) E (a + t • (b - a)) (b - a)) (⋃ k ∈ S, insideParams (q' k) a b) := hc.continuousOn.integrableOn_compact hU
  have e : (⋃ k ∈ S, insideParams (q' k) a b) = ⋃ k : S, insideParams (q' k) a b := by
    ext t; simp
  rw [e] at hint ⊢
  rw [integral_iUnion_ae (fun k : S => (hm k).nullMeasurableSet) ?_ hint, tsum_fintype]
  · exact Finset.sum_coe_sort S fun k => ∫ t in insideParams (q' k) a b, edgeField (q i) E (a + t • (b - a)) (b - a)
  · intro k l hkl
    have hk' : (k : Nat) < n' := Finset.mem_range.mp (Finset.mem_filter.mp k.2).1
    have hl' : (l : Nat) < n' := Finset.mem_range.mp (Finset.mem_filter.mp l.2).1
    exact (honce k hk' l hl' fun h => hkl (Subtype.ext h)).measure_zero volume

/-- The cell with number `k`. -/
noncomputable def flatCell (n1 : Nat) (xs ys : List ℝ) (k : Nat) : Quad ℝ := gridQuad n1 xs ys (k / (n1 - 1)) (k % (n1 - 1))

/-- The numbers on the edges of the cell with number `k`. -/
def flatData (n1 : Nat) (x y : List ℝ) (k : Nat) : Fin 4 → ℝ := edgeData n1 x y (k / (n1 - 1)) (k % (n1 - 1))

/-- **C145**, in real numbers, cells that are parallelograms: if the cells of a second source grid are parts, with parallel sides, of the cells of the first, and its
edge data are the integrals of the field of the first along its edges, the flow of every segment is the same.  The segment is to meet cells of both grids, clear of
the tolerance, and not to run along an edge between cells of the second. -/
theorem C145_parts (pert : Nat → Nat → Nat → ℝ) (g : Gels ℝ) (hg : GelsContract g) (srt : List ℝ → List ℝ)
    (hsrt : ∀ l, SortsTo l (srt l)) (n0 n1 : Nat) (h0 : 2 ≤ n0) (h1 : 2 ≤ n1) (hf : n0 * n1 ≤ 1073741824) (xs ys : List ℝ)
    (hx : n0 * n1 ≤ xs.length) (hy : n0 * n1 ≤ ys.length) (hpar : ∀ i < n0 - 1, ∀ j < n1 - 1, Parallelogram (gridQuad n1 xs ys i j))
    (x y : List ℝ) (hxl : (n0 - 1) * n1 ≤ x.length) (hyl : n0 * (n1 - 1) ≤ y.length)
    (m0 m1 : Nat) (k0 : 2 ≤ m0) (k1 : 2 ≤ m1) (kf : m0 * m1 ≤ 1073741824) (xs' ys' : List ℝ)
    (hx' : m0 * m1 ≤ xs'.length) (hy' : m0 * m1 ≤ ys'.length) (hpar' : ∀ i < m0 - 1, ∀ j < m1 - 1, Parallelogram (gridQuad m1 xs' ys' i j))
    (x' y' : List ℝ) (hxl' : (m0 - 1) * m1 ≤ x'.length) (hyl' : m0 * (m1 - 1) ≤ y'.length) (owner : Nat → Nat)
    (hr : Refines ((n0 - 1) * (n1 - 1)) (flatCell n1 xs ys) ((m0 - 1) * (m1 - 1)) (flatCell m1 xs' ys') owner)
    (hsides : ∀ k < (m0 - 1) * (m1 - 1), ParallelSides (flatCell n1 xs ys (owner k)) (flatCell m1 xs' ys' k))
    (hdata : ∀ k < (m0 - 1) * (m1 - 1), SameField (flatCell n1 xs ys (owner k)) (flatData n1 x y (owner k)) (flatCell m1 xs' ys' k) (flatData m1 x' y' k))
    (n : Nat) (hn : 1 ≤ n) (us vs : List ℝ) (hu : n ≤ us.length) (hv : n ≤ vs.length) (d : List ℝ) (hd : n - 1 ≤ d.length) :
    ∃ d1 d2, flowWith pert g srt [] n0 n1 xs ys n us vs 1 x y d = .ok d1 ∧ flowWith pert g srt [] m0 m1 xs' ys' n us vs 1 x' y' d = .ok d2 ∧
      ∀ k < n - 1, ∀ a b, a = movedNode pert n us vs k → b = movedNode pert n us vs (k + 1) → MetSegment n0 n1 xs ys a b → MetSegment m0 m1 xs' ys' a b →
        (∀ c < (m0 - 1) * (m1 - 1), ∀ c' < (m0 - 1) * (m1 - 1), c ≠ c' →
          (insideParams (flatCell m1 xs' ys' c) a b ∩ insideParams (flatCell m1 xs' ys' c') a b).Subsingleton) →
        ∃ f, d1[k]? = some f ∧ d2[k]? = some f := by
  obtain ⟨d1, e1, s1⟩ := C79_integral_partial pert g hg srt hsrt n0 n1 h0 h1 hf xs ys hx hy n hn us vs hu hv hpar x y hxl hyl d hd
  obtain ⟨d2, e2, s2⟩ := C79_integral_partial pert g hg srt hsrt m0 m1 k0 k1 kf xs' ys' hx' hy' n hn us vs hu hv hpar' x' y' hxl' hyl' d hd
  refine ⟨d1, d2, e1, e2, fun k hk a b ea eb g1 g2 honce => ⟨_, s1 k hk a b ea eb g1.met g1.clear, ?_⟩⟩
  rw [s2 k hk a b ea eb g2.met g2.clear]
  congr 1
  rw [← sum_cells n0 n1 (by omega) (fun i j => fieldIntegral (gridQuad n1 xs ys i j) (edgeData n1 x y i j) a b),
    ← sum_cells m0 m1 (by omega) (fun i j => fieldIntegral (gridQuad m1 xs' ys' i j) (edgeData m1 x' y' i j) a b)]
  symm
  have hi1 : ∀ i ∈ Finset.range ((n0 - 1) * (n1 - 1)),
      fieldIntegral (gridQuad n1 xs ys (i / (n1 - 1)) (i % (n1 - 1))) (edgeData n1 x y (i / (n1 - 1)) (i % (n1 - 1))) a b =
      ∑ c ∈ (Finset.range ((m0 - 1) * (m1 - 1))).filter (fun c => owner c = i), fieldIntegral (flatCell m1 xs' ys' c) (flatData m1 x' y' c) a b := by
    intro i hi
    have := fieldIntegral_owned hr honce (flatData n1 x y i) i (Finset.mem_range.mp hi)
    refine this.trans (Finset.sum_congr rfl fun c hc => ?_)
    obtain ⟨hc', ho⟩ := Finset.mem_filter.mp hc
    clear hc
    have hc := Finset.mem_range.mp hc'
    subst ho
    unfold fieldIntegral
    refine setIntegral_congr_fun (inside_compact _ a b).isClosed.measurableSet fun t _ => ?_
    have p1 := (FlowInterp.cell_split (hr.owned c hc)).2.2
    have p2 := (FlowInterp.cell_split hc).2.2
    exact (edgeField_part (hpar _ p1.1 _ p1.2) (hpar' _ p2.1 _ p2.2) (hsides c hc) (hdata c hc) _ _).symm
  rw [Finset.sum_congr rfl hi1]
  exact Finset.sum_fiberwise_of_maps_to (fun c hc => Finset.mem_range.mpr (hr.owned c (Finset.mem_range.mp hc))) _

/-! ### A case: the square [0,4] x [0,4] cut into the columns [0,1] and [1,4] -/

/-- The columns. -/
def zColumn (k : Nat) : Fin 4 → ℤ × ℤ := if k = 0 then ![(0, 0), (1, 0), (1, 4), (0, 4)] else ![(1, 0), (4, 0), (4, 4), (1, 4)]

theorem column_cell : ∀ k < 2, flatCell 2 ([0, 0, 1, 1, 4, 4] : List ℝ) [0, 4, 0, 4, 0, 4] k = zquad (zColumn k) := by
  intro k hk
  funext c
  interval_cases k <;> fin_cases c <;> simp [flatCell, gridQuad, nodePlace, cellNode, zquad, zColumn]

theorem whole_cell : flatCell 2 ([0, 0, 4, 4] : List ℝ) [0, 4, 0, 4] 0 = zquad zLarge := by
  simpa [flatCell] using large_cell 0 (by norm_num) 0 (by norm_num)

theorem column_region {k : Nat} (hk : k < 2) : quadRegion (zquad (zColumn k)) = (if k = 0 then Set.Icc (0 : ℝ) 1 else Set.Icc (1 : ℝ) 4) ×ˢ Set.Icc (0 : ℝ) 4 := by
  interval_cases k
  · rw [if_pos rfl]
    exact box_region (by norm_num) (by norm_num) (by simp [zquad, zColumn]) (by simp [zquad, zColumn]) (by simp [zquad, zColumn]) (by simp [zquad, zColumn])
  · rw [if_neg (by norm_num)]
    exact box_region (by norm_num) (by norm_num) (by simp [zquad, zColumn]) (by simp [zquad, zColumn]) (by simp [zquad, zColumn]) (by simp [zquad, zColumn])

theorem whole_region : quadRegion (zquad zLarge) = Set.Icc (0 : ℝ) 4 ×ˢ Set.Icc (0 : ℝ) 4 :=
  box_region (by norm_num) (by norm_num) (by simp [zquad, zLarge]) (by simp [zquad, zLarge]) (by simp [zquad, zLarge]) (by simp [zquad, zLarge])

/-- Any data on the square; the segment from (0, 1) to (4, 3) has the same flow on the square and on the two columns. -/
example (g : Gels ℝ) (hg : GelsContract g) (srt : List ℝ → List ℝ) (hsrt : ∀ l, SortsTo l (srt l)) (a b a' b' : ℝ) :
    ∃ d1 d2 f, flowWith noPert g srt [] 2 2 [0, 0, 4, 4] [0, 4, 0, 4] 2 [0, 4] [1, 3] 1 [a, b] [a', b'] [7] = .ok d1 ∧
      flowWith noPert g srt [] 3 2 [0, 0, 1, 1, 4, 4] [0, 4, 0, 4, 0, 4] 2 [0, 4] [1, 3] 1 [a / 4, b / 4, 3 * a / 4, 3 * b / 4] [a', (3 * a' + b') / 4, b'] [7] = .ok d2 ∧
      d1[0]? = some f ∧ d2[0]? = some f := by
  have hq1 : ∀ i < 1, ∀ j < 1, Parallelogram (gridQuad 2 ([0, 0, 4, 4] : List ℝ) [0, 4, 0, 4] i j) := by
    intro i hi j hj
    rw [large_cell i hi j hj]
    constructor <;> simp [zquad, zLarge]
  have hcol : ∀ i < 2, ∀ j < 1, gridQuad 2 ([0, 0, 1, 1, 4, 4] : List ℝ) [0, 4, 0, 4, 0, 4] i j = zquad (zColumn i) := by
    intro i hi j hj
    have : j = 0 := by omega
    subst this
    rw [← column_cell i hi]
    unfold flatCell
    rw [show i / (2 - 1) = i by simp, show i % (2 - 1) = 0 by omega]
  have hq2 : ∀ i < 2, ∀ j < 1, Parallelogram (gridQuad 2 ([0, 0, 1, 1, 4, 4] : List ℝ) [0, 4, 0, 4, 0, 4] i j) := by
    intro i hi j hj
    rw [hcol i hi j hj]
    interval_cases i <;> constructor <;> simp [zquad, zColumn] <;> norm_num
  obtain ⟨d1, d2, e1, e2, h⟩ := C145_parts noPert g hg srt hsrt 2 2 (by norm_num) (by norm_num) (by norm_num) [0, 0, 4, 4] [0, 4, 0, 4] (by simp) (by simp) hq1
    [a, b] [a', b'] (by simp) (by simp) 3 2 (by norm_num) (by norm_num) (by norm_num) [0, 0, 1, 1, 4, 4] [0, 4, 0, 4, 0, 4] (by simp) (by simp) hq2
    [a / 4, b / 4, 3 * a / 4, 3 * b / 4] [a', (3 * a' + b') / 4, b'] (by simp) (by simp) (fun _ => 0)
    ⟨fun k _ => by norm_num, fun i hi => by
      have : i = 0 := by omega
      subst this
      rw [whole_cell, whole_region]
      ext ⟨u, v⟩
      simp only [Set.mem_iUnion, exists_prop, Finset.mem_filter, Finset.mem_range, and_true]
      constructor
      · rintro ⟨⟨h1, h2⟩, h3⟩
        rcases le_total u 1 with hu | hu
        · exact ⟨0, by norm_num, by rw [column_cell 0 (by norm_num), column_region (by norm_num), if_pos rfl]; exact ⟨⟨h1, hu⟩, h3⟩⟩
        · exact ⟨1, by norm_num, by rw [column_cell 1 (by norm_num), column_region (by norm_num), if_neg (by norm_num)]; exact ⟨⟨hu, h2⟩, h3⟩⟩
      · rintro ⟨k, hk, hm⟩
        have hk : k < 2 := hk
        rw [column_cell k hk, column_region hk] at hm
        obtain ⟨h1, h3⟩ := hm
        refine ⟨?_, h3⟩
        dsimp only at h1 ⊢
        split_ifs at h1 <;> constructor <;> linarith [h1.1, h1.2]⟩
    (by
      intro k hk
      have hk : k < 2 := hk
      rw [whole_cell, column_cell k hk]
      interval_cases k
      · refine ⟨1 / 4, 1, by norm_num, by norm_num, ?_, ?_⟩ <;> ext <;> simp [zquad, zColumn, zLarge]
      · refine ⟨3 / 4, 1, by norm_num, by norm_num, ?_, ?_⟩ <;> ext <;> simp [zquad, zColumn, zLarge] <;> norm_num)
    (by
      intro k hk
      have hk : k < 2 := hk
      rw [whole_cell, column_cell k hk]
      interval_cases k <;> constructor <;> rw [edgeIntegral_eq] <;>
        simp [flatData, edgeData, xEdge, yEdge, coef0, coef1, coordX, cellVector, zquad, zColumn, zLarge] <;> ring)
    2 (by norm_num) [0, 4] [1, 3] (by simp) (by simp) [7] (by simp)
  obtain ⟨f, f1, f2⟩ := h 0 (by norm_num) (0, 1) (4, 3) (by simp [movedNode, noPert]) (by simp [movedNode, noPert])
    ⟨⟨0, by norm_num, 0, by norm_num, 0, ⟨le_rfl, zero_le_one, by simpa using large_inside (u := 0) (v := 1) (by norm_num) (by norm_num)⟩,
      1, ⟨zero_le_one, le_rfl, by simpa using large_inside (u := 4) (v := 3) (by norm_num) (by norm_num)⟩, zero_ne_one⟩, fun i hi j hj => by
        rw [large_cell i hi j hj]
        simpa using clearLine_int (z := zLarge) (by decide) (by decide) (0, 1) (4, 3) (by norm_num) (by norm_num) (Or.inr (by decide))⟩
    ⟨⟨0, by norm_num, 0, by norm_num, 0, ⟨le_rfl, zero_le_one, by
        rw [hcol 0 (by norm_num) 0 (by norm_num), column_region (by norm_num), if_pos rfl]; norm_num⟩,
      1 / 4, ⟨by norm_num, by norm_num, by
        rw [hcol 0 (by norm_num) 0 (by norm_num), column_region (by norm_num), if_pos rfl]; norm_num⟩, by norm_num⟩, fun i hi j hj => by
        have hi : i < 2 := hi
        have hc : ZConvex (zColumn i) ∧ ZSmall (zColumn i) := by interval_cases i <;> exact ⟨by decide, by decide⟩
        rw [hcol i hi j hj]
        simpa using clearLine_int hc.1 hc.2 (0, 1) (4, 3) (by norm_num) (by norm_num) (Or.inr (by decide))⟩
    (by
      have key : ∀ t, t ∈ insideParams (flatCell 2 ([0, 0, 1, 1, 4, 4] : List ℝ) [0, 4, 0, 4, 0, 4] 0) (0, 1) (4, 3) →
          t ∈ insideParams (flatCell 2 ([0, 0, 1, 1, 4, 4] : List ℝ) [0, 4, 0, 4, 0, 4] 1) (0, 1) (4, 3) → t = 1 / 4 := by
        rintro t ⟨-, -, ht⟩ ⟨-, -, ht'⟩
        rw [column_cell 0 (by norm_num), column_region (by norm_num), if_pos rfl] at ht
        rw [column_cell 1 (by norm_num), column_region (by norm_num), if_neg (by norm_num)] at ht'
        have h1 := ht.1.2
        have h2 := ht'.1.1
        simp at h1 h2
        linarith
      intro c hc c' hc' hne s hs t ht
      have hc : c < 2 := hc
      have hc' : c' < 2 := hc'
      rcases (show (c = 0 ∧ c' = 1) ∨ (c = 1 ∧ c' = 0) by omega) with ⟨rfl, rfl⟩ | ⟨rfl, rfl⟩
      · rw [key s hs.1 hs.2, key t ht.1 ht.2]
      · rw [key s hs.2 hs.1, key t ht.2 ht.1])
  exact ⟨d1, d2, f, e1, e2, f1, f2⟩

end Sg.Props
