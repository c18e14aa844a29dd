import Verif.Proof.FieldIntegral
import Verif.Props.FlowSegments
/-
Property C91: the flow through a segment changes sign with the direction of the segment and is the sum of the flows of its pieces.
`g` is the linear algebra library, `srt` is `std::sort` and `pert` the perturbation of the nodes of the line.
-/
namespace Sg.Props
open Sg Sg.FlowInterp Sg.QuadIntersect Sg.QuadFlows Sg.LinearSolve Sg.Triangulate Sg.FindPoint Sg.QuadLine Sg.Spec

/-- The segment has more than a point in some cell, and no decision about it is closer than the tolerance of the intersector. -/
structure MetSegment (n0 n1 : Nat) (xs ys : List ℝ) (a b : ℝ × ℝ) : Prop where
  met : ∃ i < n0 - 1, ∃ j < n1 - 1, (insideParams (gridQuad n1 xs ys i j) a b).Nontrivial
  clear : ∀ i < n0 - 1, ∀ j < n1 - 1, ClearLine (gridQuad n1 xs ys i j) a b

/-- **C91**, in real numbers, cells that are parallelograms: if the nodes of a second line (as stored) are those of the first in
reverse order, the flows of its segments are those of the first, in reverse order and with the opposite sign. -/
theorem C91_reverse_partial (pert pert' : Nat → Nat → Nat → ℝ) (g : Gels ℝ) (hg : GelsContract g) (srt : List ℝ → List ℝ)
    (hsrt : ∀ l, SortsTo l (srt l)) (n0 n1 : Nat) (h0 : 2 ≤ n0) (h1 : 2 ≤ n1) (hf : n0 * n1 ≤ 1073741824) (xs ys : List ℝ)
    (hx : n0 * n1 ≤ xs.length) (hy : n0 * n1 ≤ ys.length)
    (hpar : ∀ i < n0 - 1, ∀ j < n1 - 1, Parallelogram (gridQuad n1 xs ys i j))
    (n : Nat) (hn : 1 ≤ n) (us vs us' vs' : List ℝ) (hu : n ≤ us.length) (hv : n ≤ vs.length) (hu' : n ≤ us'.length) (hv' : n ≤ vs'.length)
    (hrev : ∀ k < n, movedNode pert' n us' vs' k = movedNode pert n us vs (n - 1 - k)) (x y : List ℝ)
    (hxl : (n0 - 1) * n1 ≤ x.length) (hyl : n0 * (n1 - 1) ≤ y.length) (d e : List ℝ) (hd : n - 1 ≤ d.length) (he : n - 1 ≤ e.length) :
    ∃ d' e', flowWith pert g srt [] n0 n1 xs ys n us vs 1 x y d = .ok d' ∧
      flowWith pert' g srt [] n0 n1 xs ys n us' vs' 1 x y e = .ok e' ∧
      ∀ k < n - 1, ∀ a b, a = movedNode pert n us vs k → b = movedNode pert n us vs (k + 1) →
        MetSegment n0 n1 xs ys a b → MetSegment n0 n1 xs ys b a → ∃ v, d'[k]? = some v ∧ e'[n - 2 - k]? = some (-v) := by
  obtain ⟨d', hd', h⟩ := C79_integral_partial pert g hg srt hsrt n0 n1 h0 h1 hf xs ys hx hy n hn us vs hu hv hpar x y hxl hyl d hd
  obtain ⟨e', he', h'⟩ := C79_integral_partial pert' g hg srt hsrt n0 n1 h0 h1 hf xs ys hx hy n hn us' vs' hu' hv' hpar x y hxl hyl e he
  refine ⟨d', e', hd', he', fun k hk a b ea eb m m' => ⟨_, h k hk a b ea eb m.met m.clear, ?_⟩⟩
  rw [h' (n - 2 - k) (by omega) b a (by rw [hrev _ (by omega), eb]; congr 1; omega) (by rw [hrev _ (by omega), ea]; congr 1; omega)
    m'.met m'.clear]
  congr 1
  rw [← Finset.sum_neg_distrib]
  refine Finset.sum_congr rfl fun i _ => ?_
  rw [← Finset.sum_neg_distrib]
  exact Finset.sum_congr rfl fun j _ => fieldIntegral_swap _ _ _ _

/-- **C91**, in real numbers, cells that are parallelograms: if a node is inserted on segment `m` of a line (as stored), the flow of
that segment is the sum of the flows of the two pieces, and the flows of the other segments do not change. -/
theorem C91_split_partial (pert pert' : Nat → Nat → Nat → ℝ) (g : Gels ℝ) (hg : GelsContract g) (srt : List ℝ → List ℝ)
    (hsrt : ∀ l, SortsTo l (srt l)) (n0 n1 : Nat) (h0 : 2 ≤ n0) (h1 : 2 ≤ n1) (hf : n0 * n1 ≤ 1073741824) (xs ys : List ℝ)
    (hx : n0 * n1 ≤ xs.length) (hy : n0 * n1 ≤ ys.length)
    (hpar : ∀ i < n0 - 1, ∀ j < n1 - 1, Parallelogram (gridQuad n1 xs ys i j))
    (n : Nat) (us vs us' vs' : List ℝ) (hu : n ≤ us.length) (hv : n ≤ vs.length) (hu' : n + 1 ≤ us'.length) (hv' : n + 1 ≤ vs'.length)
    (m : Nat) (hm : m + 1 < n) (s : ℝ) (hs0 : 0 ≤ s) (hs1 : s ≤ 1)
    (hlo : ∀ k ≤ m, movedNode pert' (n + 1) us' vs' k = movedNode pert n us vs k)
    (hmid : movedNode pert' (n + 1) us' vs' (m + 1) =
      movedNode pert n us vs m + s • (movedNode pert n us vs (m + 1) - movedNode pert n us vs m))
    (hhi : ∀ k, m + 1 ≤ k → k < n → movedNode pert' (n + 1) us' vs' (k + 1) = movedNode pert n us vs k) (x y : List ℝ)
    (hxl : (n0 - 1) * n1 ≤ x.length) (hyl : n0 * (n1 - 1) ≤ y.length) (d e : List ℝ) (hd : n - 1 ≤ d.length) (he : n ≤ e.length)
    (hmet : ∀ k < n - 1, MetSegment n0 n1 xs ys (movedNode pert n us vs k) (movedNode pert n us vs (k + 1)))
    (hmet' : ∀ k < n, MetSegment n0 n1 xs ys (movedNode pert' (n + 1) us' vs' k) (movedNode pert' (n + 1) us' vs' (k + 1))) :
    ∃ d' e', flowWith pert g srt [] n0 n1 xs ys n us vs 1 x y d = .ok d' ∧
      flowWith pert' g srt [] n0 n1 xs ys (n + 1) us' vs' 1 x y e = .ok e' ∧
      (∃ v w, e'[m]? = some v ∧ e'[m + 1]? = some w ∧ d'[m]? = some (v + w)) ∧
      (∀ k < m, e'[k]? = d'[k]?) ∧ (∀ k, m < k → k < n - 1 → e'[k + 1]? = d'[k]?) := by
  obtain ⟨d', hd', h⟩ := C79_integral_partial pert g hg srt hsrt n0 n1 h0 h1 hf xs ys hx hy n (by omega) us vs hu hv hpar x y hxl hyl d hd
  obtain ⟨e', he', h'⟩ := C79_integral_partial pert' g hg srt hsrt n0 n1 h0 h1 hf xs ys hx hy (n + 1) (by omega) us' vs' hu' hv' hpar x y hxl
    hyl e he
  have hD := fun k (hk : k < n - 1) => h k hk _ _ rfl rfl (hmet k hk).met (hmet k hk).clear
  have hE := fun k (hk : k < n) => h' k hk _ _ rfl rfl (hmet' k hk).met (hmet' k hk).clear
  refine ⟨d', e', hd', he', ⟨_, _, hE m (by omega), hE (m + 1) (by omega), ?_⟩, fun k hk => ?_, fun k hk hk' => ?_⟩
  · rw [hD m (by omega), hlo m le_rfl, hmid, hhi (m + 1) le_rfl (by omega), ← Finset.sum_add_distrib]
    congr 1
    refine Finset.sum_congr rfl fun i _ => ?_
    rw [← Finset.sum_add_distrib]
    exact Finset.sum_congr rfl fun j _ => fieldIntegral_split _ _ _ _ s hs0 hs1
  · rw [hD k (by omega), hE k (by omega), hlo k hk.le, hlo (k + 1) hk]
  · rw [hD k hk', hE (k + 1) (by omega), hhi k hk (by omega), hhi (k + 1) (by omega) (by omega)]

/-! ### A case -/

theorem square_cell : ∀ i < 2, ∀ j < 2,
    gridQuad 3 ([0, 0, 0, 1, 1, 1, 2, 2, 2] : List ℝ) [0, 1, 2, 0, 1, 2, 0, 1, 2] i j = zquad (zcell i j) := by
  intro i hi j hj
  funext c
  interval_cases i <;> interval_cases j <;> fin_cases c <;> simp [gridQuad, nodePlace, cellNode, zquad, zcell]

theorem square_inside {i j : Nat} (hi : i < 2) (hj : j < 2) {u v : ℝ} (hu : 0 ≤ u ∧ u ≤ 1) (hv : 0 ≤ v ∧ v ≤ 1) :
    ((i + u, j + v) : ℝ × ℝ) ∈ quadRegion (gridQuad 3 ([0, 0, 0, 1, 1, 1, 2, 2, 2] : List ℝ) [0, 1, 2, 0, 1, 2, 0, 1, 2] i j) := by
  have := at_region (gridQuad 3 ([0, 0, 0, 1, 1, 1, 2, 2, 2] : List ℝ) [0, 1, 2, 0, 1, 2, 0, 1, 2] i j)
    (x := fun k => if k = 0 then u else v) (fun k => by dsimp only; split_ifs <;> assumption)
  rw [at_affine (tensor_parallelogram square_tensor (by omega) (by omega))] at this
  convert this using 1
  interval_cases i <;> interval_cases j <;> (refine Prod.ext ?_ ?_ <;> simp [gridQuad, nodePlace, cellNode] <;> ring)

/-- The diagonal of the grid of 3 times 3 integer nodes, and its two halves, meet the hypotheses on segments. -/
theorem square_met (p q : Fin 3) (h : p ≠ q) : MetSegment 3 3 ([0, 0, 0, 1, 1, 1, 2, 2, 2] : List ℝ) [0, 1, 2, 0, 1, 2, 0, 1, 2]
    ((p.val : ℝ), (p.val : ℝ)) ((q.val : ℝ), (q.val : ℝ)) := by
  constructor
  · have key : ∀ (c : Nat), c < 2 → ∀ u w : ℝ, 0 ≤ u ∧ u ≤ 1 → 0 ≤ w ∧ w ≤ 1 → (p.val : ℝ) = c + u → ((p.val : ℝ) + q.val) / 2 = c + w →
        (insideParams (gridQuad 3 ([0, 0, 0, 1, 1, 1, 2, 2, 2] : List ℝ) [0, 1, 2, 0, 1, 2, 0, 1, 2] c c)
          ((p.val : ℝ), (p.val : ℝ)) ((q.val : ℝ), (q.val : ℝ))).Nontrivial := by
      intro c hc u w hu hw eu ew
      refine ⟨0, ⟨le_rfl, zero_le_one, ?_⟩, 1 / 2, ⟨by norm_num, by norm_num, ?_⟩, by norm_num⟩
      · rw [zero_smul, add_zero, eu]
        exact square_inside hc hc hu hu
      · have := square_inside hc hc hw hw
        rw [← ew] at this
        convert this using 1
        refine Prod.ext ?_ ?_ <;> (simp; ring)
    fin_cases p <;> fin_cases q <;> first | exact absurd rfl h | skip
    · exact ⟨0, by norm_num, 0, by norm_num, key 0 (by norm_num) 0 (1 / 2) (by norm_num) (by norm_num) (by norm_num) (by norm_num)⟩
    · exact ⟨0, by norm_num, 0, by norm_num, key 0 (by norm_num) 0 1 (by norm_num) (by norm_num) (by norm_num) (by norm_num)⟩
    · exact ⟨0, by norm_num, 0, by norm_num, key 0 (by norm_num) 1 (1 / 2) (by norm_num) (by norm_num) (by norm_num) (by norm_num)⟩
    · exact ⟨1, by norm_num, 1, by norm_num, key 1 (by norm_num) 0 (1 / 2) (by norm_num) (by norm_num) (by norm_num) (by norm_num)⟩
    · exact ⟨1, by norm_num, 1, by norm_num, key 1 (by norm_num) 1 0 (by norm_num) (by norm_num) (by norm_num) (by norm_num)⟩
    · exact ⟨1, by norm_num, 1, by norm_num, key 1 (by norm_num) 1 (1 / 2) (by norm_num) (by norm_num) (by norm_num) (by norm_num)⟩
  · intro i hi j hj
    have hi : i < 2 := hi
    have hj : j < 2 := hj
    have hc : ZConvex (zcell i j) ∧ ZSmall (zcell i j) := by
      interval_cases i <;> interval_cases j <;> exact ⟨by decide, by decide⟩
    rw [square_cell i hi j hj]
    have := clearLine_int hc.1 hc.2 ((p.val : ℤ), (p.val : ℤ)) ((q.val : ℤ), (q.val : ℤ)) (by have := p.isLt; constructor <;> (dsimp only; omega)) (by have := q.isLt; constructor <;> (dsimp only; omega))
      (Or.inl (by interval_cases i <;> interval_cases j <;> decide))
    simpa using this

/-- The diagonal and the diagonal the other way. -/
example (g : Gels ℝ) (hg : GelsContract g) (srt : List ℝ → List ℝ) (hsrt : ∀ l, SortsTo l (srt l)) (x y : List ℝ)
    (hxl : 6 ≤ x.length) (hyl : 6 ≤ y.length) :
    ∃ d' e', flowWith noPert g srt [] 3 3 [0, 0, 0, 1, 1, 1, 2, 2, 2] [0, 1, 2, 0, 1, 2, 0, 1, 2] 2 [0, 2] [0, 2] 1 x y [7] = .ok d' ∧
      flowWith noPert g srt [] 3 3 [0, 0, 0, 1, 1, 1, 2, 2, 2] [0, 1, 2, 0, 1, 2, 0, 1, 2] 2 [2, 0] [2, 0] 1 x y [7] = .ok e' ∧
      ∃ v : ℝ, d'[0]? = some v ∧ e'[0]? = some (-v) := by
  obtain ⟨d', e', h1, h2, h⟩ := C91_reverse_partial noPert noPert g hg srt hsrt 3 3 (by norm_num) (by norm_num) (by norm_num) _ _ (by simp) (by simp)
    (fun i hi j hj => tensor_parallelogram square_tensor hi hj) 2 (by norm_num) [0, 2] [0, 2] [2, 0] [2, 0] (by simp) (by simp) (by simp)
    (by simp) (by intro k hk; interval_cases k <;> simp [movedNode, noPert]) x y hxl hyl [7] [7] (by simp) (by simp)
  refine ⟨d', e', h1, h2, h 0 (by norm_num) (0, 0) (2, 2) (by simp [movedNode, noPert]) (by simp [movedNode, noPert]) ?_ ?_⟩
  · simpa using square_met 0 2 (by decide)
  · simpa using square_met 2 0 (by decide)

/-- The diagonal split at its middle. -/
example (g : Gels ℝ) (hg : GelsContract g) (srt : List ℝ → List ℝ) (hsrt : ∀ l, SortsTo l (srt l)) (x y : List ℝ)
    (hxl : 6 ≤ x.length) (hyl : 6 ≤ y.length) :
    ∃ d' e', flowWith noPert g srt [] 3 3 [0, 0, 0, 1, 1, 1, 2, 2, 2] [0, 1, 2, 0, 1, 2, 0, 1, 2] 2 [0, 2] [0, 2] 1 x y [7] = .ok d' ∧
      flowWith noPert g srt [] 3 3 [0, 0, 0, 1, 1, 1, 2, 2, 2] [0, 1, 2, 0, 1, 2, 0, 1, 2] 3 [0, 1, 2] [0, 1, 2] 1 x y [7, 7] = .ok e' ∧
      ∃ v w, e'[0]? = some v ∧ e'[1]? = some w ∧ d'[0]? = some (v + w) := by
  obtain ⟨d', e', h1, h2, h, -⟩ := C91_split_partial noPert noPert g hg srt hsrt 3 3 (by norm_num) (by norm_num) (by norm_num) _ _ (by simp) (by simp)
    (fun i hi j hj => tensor_parallelogram square_tensor hi hj) 2 [0, 2] [0, 2] [0, 1, 2] [0, 1, 2] (by simp) (by simp) (by simp)
    (by simp) 0 (by norm_num) (1 / 2) (by norm_num) (by norm_num) (by intro k hk; interval_cases k; simp [movedNode, noPert])
    (by simp [movedNode, noPert]) (by intro k hk hk'; interval_cases k; simp [movedNode, noPert]) x y hxl hyl [7] [7, 7] (by simp) (by simp)
    (by
      intro k hk
      interval_cases k
      simpa [movedNode, noPert] using square_met 0 2 (by decide))
    (by
      intro k hk
      interval_cases k
      · simpa [movedNode, noPert] using square_met 0 1 (by decide)
      · simpa [movedNode, noPert] using square_met 1 2 (by decide))
  exact ⟨d', e', h1, h2, h⟩

/-- **C91 is false for lines reversed by the caller**: the nodes of the reversed line are moved by other amounts.  On one square cell,
with the potential `i`, the line (1/4, 1/4), (3/4, 1/4), (3/4, 3/4) and its reverse: the flows of the segment along the first axis do
not add to zero. -/
theorem C91_caller_refuted :
    ∃ u v u' v' : ℚ, flowWith pert3 Sg.Witness.cramerGels sortReal [] 2 2 [0, 0, 1, 1] [0, 1, 0, 1] 3 [1 / 4, 3 / 4, 3 / 4]
      [1 / 4, 1 / 4, 3 / 4] 1 [1, 1] [0, 0] [7, 7] = .ok [u, v] ∧
      flowWith pert3 Sg.Witness.cramerGels sortReal [] 2 2 [0, 0, 1, 1] [0, 1, 0, 1] 3 [3 / 4, 3 / 4, 1 / 4]
      [3 / 4, 1 / 4, 1 / 4] 1 [1, 1] [0, 0] [7, 7] = .ok [u', v'] ∧ v' ≠ -u := by
  have h : (flowWith pert3 Sg.Witness.cramerGels sortReal [] 2 2 [0, 0, 1, 1] [0, 1, 0, 1] 3 [1 / 4, 3 / 4, 3 / 4]
      [1 / 4, 1 / 4, 3 / 4] 1 [1, 1] [0, 0] [7, 7] >>= fun d =>
      flowWith pert3 Sg.Witness.cramerGels sortReal [] 2 2 [0, 0, 1, 1] [0, 1, 0, 1] 3 [3 / 4, 3 / 4, 1 / 4]
      [3 / 4, 1 / 4, 1 / 4] 1 [1, 1] [0, 0] [7, 7] >>= fun d' =>
      .ok (d.length, d'.length, decide (d'.getD 1 0 = -d.getD 0 (0 : ℚ)))) = .ok (2, 2, false) := by decide +kernel
  obtain ⟨d, e, h⟩ := bind_ok_inv h
  obtain ⟨d', e', h⟩ := bind_ok_inv h
  simp only [Except.ok.injEq, Prod.mk.injEq, decide_eq_false_iff_not] at h
  obtain ⟨hl, hl', hne⟩ := h
  obtain ⟨u, v, rfl⟩ : ∃ u v, d = [u, v] := by
    match d, hl with
    | [u, v], _ => exact ⟨u, v, rfl⟩
  obtain ⟨u', v', rfl⟩ : ∃ u v, d' = [u, v] := by
    match d', hl' with
    | [u, v], _ => exact ⟨u, v, rfl⟩
  exact ⟨u, v, u', v', e, e', hne⟩

end Sg.Props
