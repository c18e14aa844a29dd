import Verif.Props.FlowInterpRounding
/-
Property C159: segments beside cells of the source grid, in rounded arithmetic.
-/
namespace Sg.Props
open Sg Sg.FlowInterp Sg.QuadIntersect Sg.QuadFlows Sg.LinearSolve Sg.Triangulate Sg.FindPoint Sg.QuadLine Sg.Spec Sg.Plane

variable {rnd : ℝ → ℝ} {u : ℝ}

/-- The segment from `a` to `b` lies to the right or left of, or above or below, the four corners. -/
def BesideCell (q : Fin 4 → ℝ × ℝ) (a b : ℝ × ℝ) : Prop :=
  (∀ c, (q c).1 < min a.1 b.1) ∨ (∀ c, max a.1 b.1 < (q c).1) ∨ (∀ c, (q c).2 < min a.2 b.2) ∨ ∀ c, max a.2 b.2 < (q c).2

/-- The numbers on the four edges of the cell `(i, j)` are the same. -/
def SameEdges {F : Type} (n1 : Nat) (x y x' y' : List F) (i j : Nat) : Prop :=
  x'[xEdge n1 i j]? = x[xEdge n1 i j]? ∧ x'[xEdge n1 i (j + 1)]? = x[xEdge n1 i (j + 1)]? ∧
  y'[yEdge n1 i j]? = y[yEdge n1 i j]? ∧ y'[yEdge n1 (i + 1) j]? = y[yEdge n1 (i + 1) j]?

theorem overlap_beside {q : Fin 4 → ℝ × ℝ} {a b : ℝ × ℝ} (h : BesideCell q a b) : overlapL q a b ≠ true := by
  intro hc
  have h2 : (((Line.new : Line ℝ).setQuadPoints q).setLinePoints a b).checkIfOverlap = .ok true := by
    have : (((Line.new : Line ℝ).setQuadPoints q).setLinePoints a b).checkIfOverlap = .ok (overlapL q a b) := rfl
    rw [this, hc]
  rw [C76_box_exact] at h2
  obtain ⟨⟨⟨i1, h1⟩, i2, h2⟩, ⟨i3, h3⟩, i4, h4⟩ := h2
  rcases h with h | h | h | h
  · exact absurd h1 (not_le.2 (h i1))
  · exact absurd h2 (not_le.2 (h i2))
  · exact absurd h3 (not_le.2 (h i3))
  · exact absurd h4 (not_le.2 (h i4))

theorem addCell_same {F : Type} [Zero F] [Add F] [Mul F] {n0 n1 : Nat} {x y x' y' : List F} {c : Nat × (Fin 4 → F)} (hc : c.1 < (n0 - 1) * (n1 - 1))
    (h : SameEdges n1 x y x' y' (c.1 / (n1 - 1)) (c.1 % (n1 - 1))) (acc : F) : addCell n0 n1 x' y' acc c = addCell n0 n1 x y acc c := by
  obtain ⟨-, -, h3, -⟩ := FlowInterp.cell_split hc
  obtain ⟨e1, e2, e3, e4⟩ := h
  unfold xEdge at e1 e2
  unfold yEdge at e3 e4
  unfold addCell
  simp only [Nat.mod_eq_of_lt h3, List.getD_eq_getElem?_getD, e1, e2, e3, e4]

/-- **C159** In rounded arithmetic, for any grid, line and solver: a segment (as stored) that lies beside every cell of the source grid gets no flow, the caller's
value stays.  The flow of any segment depends on the numbers on the edges of the cells that it does not lie beside only. -/
theorem C159_beside (hr : Rounds rnd u 0) (hN : KeepsInts rnd 10000000000) (half : rnd (1 / 2) = 1 / 2) (hu : u ≤ 1 / 10 ^ 14)
    (g : Gels (Fl rnd)) (hg : FindPoint.KeepsSizes g) (pert : Nat → Nat → Nat → Fl rnd) (srt : List (Fl rnd) → List (Fl rnd))
    (n0 n1 : Nat) (h0 : 2 ≤ n0) (h1 : 2 ≤ n1) (hfit : n0 * n1 ≤ 1073741824)
    (xs ys : List (Fl rnd)) (hx : n0 * n1 ≤ xs.length) (hy : n0 * n1 ≤ ys.length) (n : Nat) (hn : 1 ≤ n) (us vs : List (Fl rnd)) (hul : n ≤ us.length)
    (hvl : n ≤ vs.length) (x y x' y' : List (Fl rnd)) (hxl : (n0 - 1) * n1 ≤ x.length) (hyl : n0 * (n1 - 1) ≤ y.length)
    (hxl' : (n0 - 1) * n1 ≤ x'.length) (hyl' : n0 * (n1 - 1) ≤ y'.length) (d : List (Fl rnd)) (hd : n - 1 ≤ d.length) :
    ∃ f f', flowWith pert g srt [] n0 n1 xs ys n us vs 1 x y d = .ok f ∧ flowWith pert g srt [] n0 n1 xs ys n us vs 1 x' y' d = .ok f' ∧
      ∀ k < n - 1, ∀ a b, a = storedNode pert n us vs k → b = storedNode pert n us vs (k + 1) →
        ((∀ i < n0 - 1, ∀ j < n1 - 1, BesideCell (gridQuad n1 (flVals xs) (flVals ys) i j) a b) → f[k]? = d[k]?) ∧
        ((∀ i < n0 - 1, ∀ j < n1 - 1, BesideCell (gridQuad n1 (flVals xs) (flVals ys) i j) a b ∨ SameEdges n1 x y x' y' i j) → f'[k]? = f[k]?) := by
  obtain ⟨S, hS, hrun⟩ := flow_run pert g hg (pieces_defined hr hN half hu hg) srt n0 n1 h0 h1 hfit xs ys hx hy n hn us vs hul hvl
  obtain ⟨f, e, -, -, hf⟩ := hrun x y hxl hyl d hd
  obtain ⟨f', e', -, -, hf'⟩ := hrun x' y' hxl' hyl' d hd
  refine ⟨f, f', e, e', fun k hk a b ea eb => ?_⟩
  have hcell : ∀ j < (n0 - 1) * (n1 - 1), (∀ c ∈ S k j, c.1 = j) ∧
      (BesideCell (gridQuad n1 (flVals xs) (flVals ys) (j / (n1 - 1)) (j % (n1 - 1))) a b → S k j = []) := by
    intro j hj
    rcases hS k hk j hj with ⟨ho, -, s0, s', p, -, -, hl⟩ | ⟨-, hl⟩
    · refine ⟨fun c hc => by rw [hl] at hc; rw [List.mem_singleton.1 hc], fun hb => ?_⟩
      refine absurd ?_ (overlap_beside hb)
      rw [overlapL_val, cellOf_val] at ho
      rw [ea, eb]
      exact ho
    · exact ⟨fun c hc => (by rw [hl] at hc; cases hc), fun _ => hl⟩
  constructor
  · intro hb
    rw [hf k hk, if_pos]
    rw [List.flatMap_eq_nil_iff]
    intro j hj
    have hj := List.mem_range.1 hj
    exact (hcell j hj).2 (hb _ (cell_split hj).2.2.1 _ (cell_split hj).2.2.2)
  · intro hb
    rw [hf k hk, hf' k hk]
    split_ifs with hnil
    · rfl
    · congr 1
      unfold flowSum
      refine List.foldl_ext _ _ _ fun acc c hc => ?_
      obtain ⟨j, hj, hc⟩ := List.mem_flatMap.1 hc
      have hj := List.mem_range.1 hj
      have ec := (hcell j hj).1 c hc
      refine addCell_same (by rw [ec]; exact hj) ?_ acc
      rw [ec]
      refine (hb _ (cell_split hj).2.2.1 _ (cell_split hj).2.2.2).resolve_left fun hbb => ?_
      rw [(hcell j hj).2 hbb] at hc
      cases hc

/-- **C159** The same in double precision. -/
theorem C159_double (g : Gels (Fl (nearest 53))) (hg : FindPoint.KeepsSizes g) (pert : Nat → Nat → Nat → Fl (nearest 53))
    (srt : List (Fl (nearest 53)) → List (Fl (nearest 53))) (n0 n1 : Nat) (h0 : 2 ≤ n0) (h1 : 2 ≤ n1) (hfit : n0 * n1 ≤ 1073741824)
    (xs ys : List (Fl (nearest 53))) (hx : n0 * n1 ≤ xs.length) (hy : n0 * n1 ≤ ys.length) (n : Nat) (hn : 1 ≤ n) (us vs : List (Fl (nearest 53)))
    (hul : n ≤ us.length) (hvl : n ≤ vs.length) (x y x' y' : List (Fl (nearest 53))) (hxl : (n0 - 1) * n1 ≤ x.length) (hyl : n0 * (n1 - 1) ≤ y.length)
    (hxl' : (n0 - 1) * n1 ≤ x'.length) (hyl' : n0 * (n1 - 1) ≤ y'.length) (d : List (Fl (nearest 53))) (hd : n - 1 ≤ d.length) :
    ∃ f f', flowWith pert g srt [] n0 n1 xs ys n us vs 1 x y d = .ok f ∧ flowWith pert g srt [] n0 n1 xs ys n us vs 1 x' y' d = .ok f' ∧
      ∀ k < n - 1, ∀ a b, a = storedNode pert n us vs k → b = storedNode pert n us vs (k + 1) →
        ((∀ i < n0 - 1, ∀ j < n1 - 1, BesideCell (gridQuad n1 (flVals xs) (flVals ys) i j) a b) → f[k]? = d[k]?) ∧
        ((∀ i < n0 - 1, ∀ j < n1 - 1, BesideCell (gridQuad n1 (flVals xs) (flVals ys) i j) a b ∨ SameEdges n1 x y x' y' i j) → f'[k]? = f[k]?) :=
  C159_beside (nearest_rounds 53) ⟨(nearest_ints 53 (by norm_num)).mono, fun k hk => (nearest_ints 53 (by norm_num)).int k (by omega)⟩
    nearest53_consts.half (by norm_num) g hg pert srt n0 n1 h0 h1 hfit xs ys hx hy n hn us vs hul hvl x y x' y' hxl hyl hxl' hyl' d hd

/-- The hypotheses are met: two unit squares side by side, and a line of two segments.  The first is in the left square and its flow does not depend on the far
edge of the right one; the second is above both, and the caller's 9 stays. -/
example : ∃ f f' : List (Fl (nearest 53)),
    flowWith (fun _ _ _ => ⟨0⟩) (nearGels (nearest 53)) lamSort [] 3 2 twoX twoY 4 [⟨0⟩, ⟨1 / 2⟩, ⟨1 / 2⟩, ⟨2⟩] [⟨0⟩, ⟨1 / 2⟩, ⟨2⟩, ⟨3⟩] 1
      [⟨1⟩, ⟨1⟩, ⟨1⟩, ⟨1⟩] [⟨2⟩, ⟨2⟩, ⟨2⟩] [⟨7⟩, ⟨8⟩, ⟨9⟩] = .ok f ∧
    flowWith (fun _ _ _ => ⟨0⟩) (nearGels (nearest 53)) lamSort [] 3 2 twoX twoY 4 [⟨0⟩, ⟨1 / 2⟩, ⟨1 / 2⟩, ⟨2⟩] [⟨0⟩, ⟨1 / 2⟩, ⟨2⟩, ⟨3⟩] 1
      [⟨1⟩, ⟨1⟩, ⟨1⟩, ⟨1⟩] [⟨2⟩, ⟨2⟩, ⟨100⟩] [⟨7⟩, ⟨8⟩, ⟨9⟩] = .ok f' ∧ f[2]? = some ⟨9⟩ ∧ f'[0]? = f[0]? := by
  have hh : nearest 53 (1 / 2) = 1 / 2 := nearest53_consts.half
  have hi : ∀ k : Nat, k ≤ 3 → nearest 53 k = k := fun k hk => (nearest_ints 53 (by norm_num)).int k (hk.trans (by norm_num))
  have i0 := hi 0 (by norm_num)
  have i2 := hi 2 (by norm_num)
  have i3 := hi 3 (by norm_num)
  norm_num at i0 i2 i3
  obtain ⟨f, f', e, e', h⟩ := C159_double (nearGels (nearest 53)) nearGels_double.sizes (fun _ _ _ => ⟨0⟩) lamSort 3 2 (by norm_num) (by norm_num)
    (by norm_num) twoX twoY (by simp [twoX]) (by simp [twoY]) 4 (by norm_num) [⟨0⟩, ⟨1 / 2⟩, ⟨1 / 2⟩, ⟨2⟩] [⟨0⟩, ⟨1 / 2⟩, ⟨2⟩, ⟨3⟩] (by simp) (by simp)
    [⟨1⟩, ⟨1⟩, ⟨1⟩, ⟨1⟩] [⟨2⟩, ⟨2⟩, ⟨2⟩] [⟨1⟩, ⟨1⟩, ⟨1⟩, ⟨1⟩] [⟨2⟩, ⟨2⟩, ⟨100⟩] (by simp) (by simp) (by simp) (by simp) [⟨7⟩, ⟨8⟩, ⟨9⟩] (by simp)
  have s0 : storedNode (fun _ _ _ => (⟨0⟩ : Fl (nearest 53))) 4 [⟨0⟩, ⟨1 / 2⟩, ⟨1 / 2⟩, ⟨2⟩] [⟨0⟩, ⟨1 / 2⟩, ⟨2⟩, ⟨3⟩] 0 = (0, 0) := by
    show (nearest 53 (0 + 0), nearest 53 (0 + 0)) = _
    rw [add_zero, i0]
  have s1 : storedNode (fun _ _ _ => (⟨0⟩ : Fl (nearest 53))) 4 [⟨0⟩, ⟨1 / 2⟩, ⟨1 / 2⟩, ⟨2⟩] [⟨0⟩, ⟨1 / 2⟩, ⟨2⟩, ⟨3⟩] (0 + 1) = (1 / 2, 1 / 2) := by
    show (nearest 53 (1 / 2 + 0), nearest 53 (1 / 2 + 0)) = _
    rw [add_zero, hh]
  have s2 : storedNode (fun _ _ _ => (⟨0⟩ : Fl (nearest 53))) 4 [⟨0⟩, ⟨1 / 2⟩, ⟨1 / 2⟩, ⟨2⟩] [⟨0⟩, ⟨1 / 2⟩, ⟨2⟩, ⟨3⟩] 2 = (1 / 2, 2) := by
    show (nearest 53 (1 / 2 + 0), nearest 53 (2 + 0)) = _
    rw [add_zero, add_zero, hh, i2]
  have s3 : storedNode (fun _ _ _ => (⟨0⟩ : Fl (nearest 53))) 4 [⟨0⟩, ⟨1 / 2⟩, ⟨1 / 2⟩, ⟨2⟩] [⟨0⟩, ⟨1 / 2⟩, ⟨2⟩, ⟨3⟩] (2 + 1) = (2, 3) := by
    show (nearest 53 (2 + 0), nearest 53 (3 + 0)) = _
    rw [add_zero, add_zero, i2, i3]
  refine ⟨f, f', e, e', (h 2 (by norm_num) _ _ s2.symm s3.symm).1 ?_, (h 0 (by norm_num) _ _ s0.symm s1.symm).2 ?_⟩
  · intro i hi j hj
    have hi : i < 2 := hi
    obtain rfl : j = 0 := by omega
    rw [two_cell hi]
    right; right; left
    intro c
    fin_cases c <;> norm_num [unitBox]
  · intro i hi j hj
    have hi : i < 2 := hi
    obtain rfl : j = 0 := by omega
    rw [two_cell hi]
    interval_cases i
    · right
      exact ⟨rfl, rfl, rfl, rfl⟩
    · left; right; left
      intro c
      fin_cases c <;> norm_num [unitBox]

end Sg.Props
