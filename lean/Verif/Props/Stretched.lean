import Verif.Proof.Stretched
import Verif.Props.NodeInterp
import Verif.Proof.Witness
/-
Property C99: searches on grids whose spacing varies along the axes.
-/
namespace Sg.Props
open Sg Sg.FindPoint Sg.LinearSolve Sg.Spec Sg.Witness Sg.Stretched

section
variable {n : Nat} {dims : Fin n → Nat} {r : ℝ} {X : Fin n → Nat → ℝ} {c : Fin n → ℝ} {A : Matrix (Fin n) (Fin n) ℝ}
  {coords : Fin n → Nat → ℝ}

theorem on_start (nitermax : Int) (tolpos : ℝ) (t d : Fin n → ℝ) :
    On dims X c A coords t (((Finder.new nitermax tolpos).setGrid dims (fun _ => 0) coords).reset d (stretchedPlace dims X c A t)) where
  ready := ready_reset _ _ _ (ready_setGrid _ dims (fun _ => 0) coords)
  shape := rfl
  nodes := fun _ => rfl
  bounds := boundsOK_setGrid _ dims (fun _ => 0) coords
  per := fun i => by simp [Finder.reset, Finder.setGrid, Finder.new]
  target := rfl

/-- **C99, part.**  A grid of any number of axes which are perpendicular to each other, the spacing varying along each axis by
a factor `r` at most, with `r (r - 1)² ≤ 1` (as for `r = 7/4`).  The search for the place of index position `t`, from any
start `d` in the grid, ends with the code 1 if `r (r - 1)^N` times the distance from the start to the target is below the tolerance and more than `N`
iterations are allowed.  It takes some number `k ≤ N` of steps; the index error of each axis is then at most `(r - 1)^k` times that of the
start, and the place found is closer to the target than the tolerance.  Missing: grids with larger variations of the spacing, for which
the claim is false (`C99_found_refuted`). -/
theorem C99_found_partial (g : Gels ℝ) (hg : GelsContract g) (hn : 1 ≤ n) (hr : 1 ≤ r) (hr2 : r * (r - 1) ^ 2 ≤ 1) (hd : GoodDims dims)
    (h : StretchedGrid dims r X c A coords) (hp : Perpendicular A) (t d : Fin n → ℝ) (ht : InGrid dims t) (hdg : InGrid dims d)
    (N : Nat) (hN1 : 1 ≤ N) (nitermax : Int) (hN : (N : Int) < nitermax) (tolpos : ℝ)
    (htol : r * (r - 1) ^ N * distance (stretchedPlace dims X c A d) (stretchedPlace dims X c A t) < tolpos) :
    ∃ s' k, searchLoop g nitermax.toNat (((Finder.new nitermax tolpos).setGrid dims (fun _ => 0) coords).reset d
        (stretchedPlace dims X c A t)) = .ok (1, s') ∧ 1 ≤ k ∧ k ≤ N ∧ s'.iter = k ∧ InGrid dims s'.dIndices ∧
      (∀ j, |s'.dIndices j - t j| ≤ (r - 1) ^ k * |d j - t j|) ∧
      distance (stretchedPlace dims X c A s'.dIndices) (stretchedPlace dims X c A t) < tolpos := by
  obtain ⟨s', k, h1, h2, h3, h4, h5, h6⟩ := loop_stretched g hg hn hr hr2 hd h hp t d ht hdg N nitermax hN tolpos htol N 0
    nitermax.toNat _ (by omega) hN1 (by omega) (on_start nitermax tolpos t d) rfl rfl rfl rfl rfl
  have hin : InGrid dims s'.dIndices := by rw [h4]; exact iterate_inGrid hd t d hdg k
  refine ⟨s', k, h1, h2, h3, h6, hin, ?_, ?_⟩
  · intro j
    have := iterate_contract hr hd h t d ht hdg 0 k j
    rw [Nat.zero_add, ← h4] at this
    exact this
  · obtain ⟨e, he, hlt⟩ := NodeInterp.loop_error g _ _ _ h1
    have hpos : s'.getPosition = .ok (stretchedPlace dims X c A s'.dIndices) := by
      unfold Finder.getPosition
      refine forAxes_ok _ _ fun i => ?_
      rw [h5.shape]
      refine interp_stretched hd h _ hin i _ (by rw [h5.nodes]; simp) fun m hm => ?_
      rw [h5.nodes, List.getElem?_map, List.getElem?_range (rowMajor_lt dims m hm), Option.map_some]
    unfold Finder.getError at he
    rw [hpos] at he
    simp only [bind, Except.bind, pure, Except.pure, Except.ok.injEq] at he
    rw [foldl_sum, zero_add] at he
    have : distance (stretchedPlace dims X c A s'.dIndices) (stretchedPlace dims X c A t) = e := by
      rw [← he]
      show Real.sqrt _ = Real.sqrt _
      congr 1
      rw [← List.ofFn_eq_map, List.sum_ofFn]
      refine Finset.sum_congr rfl fun i _ => ?_
      rw [h5.target]
      ring
    rw [this]
    exact hlt

/-- **C99**, each single step, without the assumption of perpendicular axes (`1 ≤ r`; a gain if `r < 2`): a call of `next` in a search on the grid moves the
index along each axis to within `r - 1` times its distance from the index of the target. -/
theorem C99_step (g : Gels ℝ) (hg : GelsContract g) (hn : 1 ≤ n) (hr : 1 ≤ r) (hd : GoodDims dims)
    (h : StretchedGrid dims r X c A coords) (t d : Fin n → ℝ) (ht : InGrid dims t) (hdg : InGrid dims d) (nitermax : Int) (tolpos : ℝ) :
    ∃ code s', (((Finder.new nitermax tolpos).setGrid dims (fun _ => 0) coords).reset d (stretchedPlace dims X c A t)).next g =
      .ok (code, s') ∧ InGrid dims s'.dIndices ∧ ∀ j, |s'.dIndices j - t j| ≤ (r - 1) * |d j - t j| := by
  obtain ⟨s1, h1, _, h2, _⟩ := next_stretched g hg hn hr hd h t ht _ (on_start nitermax tolpos t d) hdg
  obtain ⟨code, s', hfin⟩ : ∃ code s', s1.finishStep (distance (stretchedPlace dims X c A (newton dims X t d))
    (stretchedPlace dims X c A t)) = (code, s') := ⟨_, _, rfl⟩
  have h1' : (((Finder.new nitermax tolpos).setGrid dims (fun _ => 0) coords).reset d (stretchedPlace dims X c A t)).next g =
    .ok (s1.finishStep (distance (stretchedPlace dims X c A (newton dims X t d)) (stretchedPlace dims X c A t))) := h1
  rw [hfin] at h1'
  have hI := (finishStep_spec s1 _ _ _ hfin.symm).2.2.2.1
  have e : s'.dIndices = newton dims X t d := hI.trans h2
  exact ⟨code, s', h1', by rw [e]; exact newton_inGrid hd t d, fun j => by rw [e]; exact newton_contract hr hd h t d ht hdg j⟩

end

/-! ### Nodal interpolation -/
section nodal
open Sg.NodeInterp
variable {dims : Fin 2 → Nat} {r : ℝ} {X : Fin 2 → Nat → ℝ} {c : Fin 2 → ℝ} {A : Matrix (Fin 2) (Fin 2) ℝ} {coords : Fin 2 → Nat → ℝ}

/-- **C99, part**: nodal interpolation from such a grid, of which no two places are farther apart than `D`: every destination node in the source
grid gets weights. -/
theorem C99_nodal_partial (g : Gels ℝ) (hg : GelsContract g) (hr : 1 ≤ r) (hr2 : r * (r - 1) ^ 2 ≤ 1)
    (hd : ∀ i, 2 ≤ dims i ∧ dims i ≤ 2 ^ 30) (h : StretchedGrid dims r X c A coords) (hp : Perpendicular A) (D : ℝ)
    (hD : ∀ u v, InGrid dims u → InGrid dims v → distance (stretchedPlace dims X c A u) (stretchedPlace dims X c A v) ≤ D)
    (N : Nat) (hN1 : 1 ≤ N) (nitermax : Int) (hN : (N : Int) < nitermax) (tolpos : ℝ) (htol : r * (r - 1) ^ N * D < tolpos)
    (dd : Fin 2 → Nat) (dc : Fin 2 → Nat → ℝ) :
    ∃ o, (((NodeInterp.new nitermax tolpos).setSrcGrid dims (fun _ => 0) coords).setDstGrid dd dc).computeWeights g = .ok o ∧
      ∀ k < dd 0 * dd 1, (∃ t, InGrid dims t ∧ (fun i => dc i k) = stretchedPlace dims X c A t) → ∃ iw, (k, iw) ∈ o.weights := by
  have hks : KeepsSizes g := hg.sizes
  have hgd : GoodDims dims := fun i => ⟨(hd i).1, (hd i).2.trans (by norm_num)⟩
  obtain ⟨o, ho, hall⟩ := C41_found_partial g hks nitermax tolpos dims hd (fun _ => 0) coords dd dc
  refine ⟨o, ho, ?_⟩
  rintro k hk ⟨t, ht, htk⟩
  set o0 := (((NodeInterp.new nitermax tolpos).setSrcGrid dims (fun _ => 0) coords).setDstGrid dd dc) with ho0
  have hset := set2_of nitermax tolpos dims hd (fun _ => 0) coords dd dc
  obtain ⟨s, code, f, hs, hf, hiff⟩ := hall k hk
  rw [hiff]
  obtain ⟨s', hs', hl⟩ := before_good g hks o0 dims hset k (le_of_lt hk)
  rw [hs, Except.ok.injEq] at hs'
  subst hs'
  have hpos : InGrid dims s.dIndices := hl.pos
  have hr0 : 0 ≤ r * (r - 1) ^ N := mul_nonneg (by linarith) (pow_nonneg (sub_nonneg.2 hr) _)
  obtain ⟨f', _, e1, _⟩ := C99_found_partial g hg (by norm_num) hr hr2 hgd h hp t s.dIndices ht hpos N hN1 nitermax hN tolpos
    ((mul_le_mul_of_nonneg_left (hD _ _ hpos ht) hr0).trans_lt htol)
  have hs0 := findTarget_same g hks o0.finder s.finder hset.grid.ready hl.ready hl.same (fun j => dc j k) s.dIndices
  have hb : findTarget g o0.finder (fun j => dc j k) s.dIndices = .ok (0, f') := by
    unfold findTarget
    have hfu : o0.finder.fuelOf = nitermax.toNat := by
      show (max nitermax 1).toNat = _
      rw [max_eq_left (by omega)]
    rw [hfu, htk]
    have e1' : searchLoop g nitermax.toNat (o0.finder.reset s.dIndices (stretchedPlace dims X c A t)) = .ok (1, f') := e1
    rw [e1']
    rfl
  rw [hb, hf] at hs0
  exact hs0.1

end nodal

/-! ### Larger variations -/

/-- Nodes 0, 1, 4, 5 on a line. -/
noncomputable def lineX : Fin 1 → Nat → ℝ := fun _ k => ([0, 1, 4, 5] : List ℝ).getD k 0

theorem lineX_grid : StretchedGrid ![4] 3 lineX 0 1 (fun i k => lineX i k) where
  node m hm i := by
    have e : rowMajor ![4] m = m 0 := by rw [rowMajor_succ]; simp [rowMajor]
    obtain rfl : i = 0 := Subsingleton.elim _ _
    simp [e, lineX]
  det := by simp
  width j := by
    refine ⟨1, by norm_num, fun k hk => ?_⟩
    fin_cases j
    simp only [Fin.zero_eta, Matrix.cons_val_fin_one] at hk
    have : k = 0 ∨ k = 1 ∨ k = 2 := by omega
    rcases this with rfl | rfl | rfl <;> norm_num [lineX]

theorem lineX_good : GoodDims ![4] := fun i => by fin_cases i; simp

theorem line_place {k : Nat} (hk : k < 3) {u : ℝ} (h0 : (k : ℝ) ≤ u) (h1 : u ≤ k + 1) :
    axisPlace 4 (lineX 0) u = lineX 0 k + (u - k) * (lineX 0 (k + 1) - lineX 0 k) := axisPlace_cell _ (by omega) h0 h1

/-- **C99 is false** without a limit on the variation.  The line with nodes at 0, 1, 4 and 5 (the spacing varies by the
factor 3): the search for the middle 5/2, at index 3/2, from the index 1/2, visits the indices 5/2 and 1/2 in turn and never succeeds, whatever the
library, the number of iterations, and the tolerance up to 2. -/
theorem C99_found_refuted (g : Gels ℝ) (hg : GelsContract g) (nitermax : Int) (tolpos : ℝ) (htol : tolpos ≤ 2) (fuel : Nat) :
    (5 / 2 : ℝ) = stretchedPlace ![4] lineX 0 1 (fun _ => 3 / 2) 0 ∧
    ∃ code s', searchLoop g fuel (((Finder.new nitermax tolpos).setGrid ![4] (fun _ => 0) (fun i k => lineX i k)).reset (fun _ => 1 / 2)
      (fun _ => 5 / 2)) = .ok (code, s') ∧ code ≠ 1 ∧ (s'.dIndices 0 = 1 / 2 ∨ s'.dIndices 0 = 5 / 2) := by
  have p0 : axisPlace 4 (lineX 0) 0 = 0 := by rw [line_place (k := 0)] <;> norm_num [lineX]
  have p1 : axisPlace 4 (lineX 0) (1 / 2) = 1 / 2 := by rw [line_place (k := 0)] <;> norm_num [lineX]
  have p2 : axisPlace 4 (lineX 0) 1 = 1 := by rw [line_place (k := 0)] <;> norm_num [lineX]
  have p3 : axisPlace 4 (lineX 0) (3 / 2) = 5 / 2 := by rw [line_place (k := 1)] <;> norm_num [lineX]
  have p4 : axisPlace 4 (lineX 0) 2 = 4 := by rw [line_place (k := 2)] <;> norm_num [lineX]
  have p5 : axisPlace 4 (lineX 0) (5 / 2) = 9 / 2 := by rw [line_place (k := 2)] <;> norm_num [lineX]
  have p6 : axisPlace 4 (lineX 0) 3 = 5 := by rw [line_place (k := 2)] <;> norm_num [lineX]
  have hplace : stretchedPlace ![4] lineX 0 1 (fun _ => 3 / 2) = fun _ => 5 / 2 := by
    funext i
    obtain rfl : i = 0 := Subsingleton.elim _ _
    simp [stretchedPlace, p3]
  refine ⟨by rw [hplace], ?_⟩
  have hstep1 : ∀ x : Fin 1 → ℝ, x 0 = 1 / 2 → newton ![4] lineX (fun _ => 3 / 2) x 0 = 5 / 2 := by
    intro x hx
    have hs : Stretched.slope ![4] lineX x 0 = 1 := by
      unfold Stretched.slope
      rw [indsHi_at lineX_good, indsLo_at, hx]
      norm_num [p0, p2]
    unfold newton
    rw [hs, hx]
    norm_num [p3, p1, truncate_zero]
  have hstep2 : ∀ x : Fin 1 → ℝ, x 0 = 5 / 2 → newton ![4] lineX (fun _ => 3 / 2) x 0 = 1 / 2 := by
    intro x hx
    have hs : Stretched.slope ![4] lineX x 0 = 1 := by
      unfold Stretched.slope
      rw [indsHi_at lineX_good, indsLo_at, hx]
      norm_num [p4, p6]
    unfold newton
    rw [hs, hx]
    norm_num [p3, p5, truncate_zero]
  have hdist : ∀ x : Fin 1 → ℝ, x 0 = 1 / 2 ∨ x 0 = 5 / 2 →
      distance (stretchedPlace ![4] lineX 0 1 x) (stretchedPlace ![4] lineX 0 1 (fun _ => 3 / 2)) = 2 := by
    intro x hx
    have : (∑ i, (stretchedPlace ![4] lineX 0 1 x i - stretchedPlace ![4] lineX 0 1 (fun _ => 3 / 2) i) ^ 2) = 2 ^ 2 := by
      rw [hplace]
      rcases hx with hx | hx <;> simp [stretchedPlace, hx] <;> norm_num [p1, p5]
    unfold distance
    rw [this, Real.sqrt_sq (by norm_num)]
  obtain ⟨code, s', h1, h2, _, _, h3⟩ := loop_bad g hg (le_refl 1) (by norm_num) lineX_good lineX_grid (fun _ => 3 / 2)
    (fun i => by fin_cases i; norm_num) 0 (fun u => u = 1 / 2 ∨ u = 5 / 2) tolpos (by
      intro x _ hx
      rcases hx with hx | hx
      · exact ⟨.inr (hstep1 x hx), by rw [hdist _ (.inr (hstep1 x hx))]; exact htol⟩
      · exact ⟨.inl (hstep2 x hx), by rw [hdist _ (.inl (hstep2 x hx))]; exact htol⟩) fuel _
    (on_start nitermax tolpos (fun _ => 3 / 2) (fun _ => 1 / 2)) (fun i => by
      fin_cases i; show (0 : ℝ) ≤ 1 / 2 ∧ (1 / 2 : ℝ) ≤ _; norm_num) (.inl rfl) rfl
  rw [hplace] at h1
  exact ⟨code, s', h1, h2, h3⟩

/-! Nodal interpolation: a rectangle of 12 times 1 cells, one of which is 100 long. -/

/-- Nodes 0, 1, 2, 102, 103, ..., 111 along the first axis, 0 and 1 along the second. -/
noncomputable def wideX : Fin 2 → Nat → ℝ := fun i k => if i = 0 then (if k ≤ 2 then (k : ℝ) else k + 99) else k

/-- The coordinates of the nodes of this rectangle. -/
noncomputable def wideCoords : Fin 2 → Nat → ℝ := fun i k => if i = 0 then wideX 0 (k / 2) else wideX 1 (k % 2)

theorem wide_grid : StretchedGrid ![13, 2] 100 wideX 0 1 wideCoords where
  node m hm i := by
    have h1 : m 1 < 2 := hm 1
    have e : rowMajor ![13, 2] m = m 0 * 2 + m 1 := by rw [rowMajor_succ, rowMajor_succ]; simp [rowMajor]
    rw [e]
    unfold wideCoords
    rw [show (m 0 * 2 + m 1) / 2 = m 0 by omega, show (m 0 * 2 + m 1) % 2 = m 1 by omega]
    fin_cases i <;> simp [Matrix.one_apply]
  det := by simp
  width j := by
    refine ⟨1, by norm_num, fun k hk => ?_⟩
    unfold wideX
    split_ifs with h1 h2 h3 h4
    · push_cast; constructor <;> linarith
    · omega
    · have : k = 2 := by omega
      subst this; norm_num
    · push_cast; constructor <;> linarith
    · push_cast; constructor <;> linarith

theorem wide_good : GoodDims ![13, 2] := fun i => by fin_cases i <;> simp

/-- Left of the long cell. -/
theorem wide_left {u : ℝ} (h0 : 0 ≤ u) (h1 : u ≤ 2) : axisPlace 13 (wideX 0) u = u := by
  rcases le_total u 1 with h | h
  · rw [axisPlace_cell (k := 0) _ (by norm_num) (by simpa using h0) (by simpa using h)]; norm_num [wideX]
  · rw [axisPlace_cell (k := 1) _ (by norm_num) (by simpa using h) (by norm_num; linarith)]; norm_num [wideX]

/-- Right of the long cell. -/
theorem wide_right {u : ℝ} (h0 : 3 ≤ u) (h1 : u ≤ 12) : axisPlace 13 (wideX 0) u = u + 99 := by
  obtain ⟨k, hk, h2, h3⟩ := FlowInterp.exists_cell (X := fun k => ((k : ℕ) : ℝ)) (m := 12) (u := u) (by norm_num) (by push_cast; linarith)
    (by push_cast; linarith)
  push_cast at h3
  have hk2 : 2 ≤ k := by
    by_contra hc
    have : (k : ℝ) ≤ 1 := by exact_mod_cast (show k ≤ 1 by omega)
    linarith
  rw [axisPlace_cell (k := k) _ (by omega) h2 h3]
  unfold wideX
  rw [if_pos rfl, if_pos rfl, if_neg (by omega : ¬ k + 1 ≤ 2)]
  split_ifs with h4
  · have : k = 2 := by omega
    subst this
    push_cast at h3 ⊢
    have : u = 3 := by linarith
    subst this; norm_num
  · push_cast; ring

theorem wide_mid : axisPlace 13 (wideX 0) (5 / 2) = 52 := by
  rw [axisPlace_cell (k := 2)] <;> norm_num [wideX]

/-- **C99 is false** without a limit on the variation, nodal interpolation: with the rectangle of 12 times 1 cells above, the middle of the long cell, the point
(52, 1/2), gets no weights, for any library, number of iterations, and tolerance up to 50. -/
theorem C99_nodal_refuted (g : Gels ℝ) (hg : GelsContract g) (nitermax : Int) (tolpos : ℝ) (htol : tolpos ≤ 50) :
    ![52, 1 / 2] = stretchedPlace ![13, 2] wideX 0 1 ![5 / 2, 1 / 2] ∧
    ∃ o, (((NodeInterp.new nitermax tolpos).setSrcGrid ![13, 2] (fun _ => 0) wideCoords).setDstGrid ![1, 1]
      (fun i _ => ![52, 1 / 2] i)).computeWeights g = .ok o ∧ o.weights = [] := by
  have hks : KeepsSizes g := hg.sizes
  have q : axisPlace 2 (wideX 1) (1 / 2) = 1 / 2 := by rw [axisPlace_cell (k := 0)] <;> norm_num [wideX]
  have hplace : stretchedPlace ![13, 2] wideX 0 1 ![5 / 2, 1 / 2] = ![52, 1 / 2] := by
    funext i
    fin_cases i
    · simp [stretchedPlace, Matrix.one_apply, wide_mid]
    · have q' := q
      rw [one_div] at q'
      simp [stretchedPlace, Matrix.one_apply, q']
  refine ⟨hplace.symm, ?_⟩
  have hd : ∀ i : Fin 2, 2 ≤ ![13, 2] i ∧ ![13, 2] i ≤ 2 ^ 30 := fun i => by fin_cases i <;> simp
  obtain ⟨o, ho, hall⟩ := C41_found_partial g hks nitermax tolpos ![13, 2] hd (fun _ => 0) wideCoords ![1, 1] (fun i _ => ![52, 1 / 2] i)
  obtain ⟨o', ho', htab, _⟩ := C38_table g hks nitermax tolpos ![13, 2] hd (fun _ => 0) wideCoords ![1, 1] (fun i _ => ![52, 1 / 2] i)
  rw [ho, Except.ok.injEq] at ho'
  subst ho'
  refine ⟨o, ho, ?_⟩
  obtain ⟨s, code, f, hs, hf, hiff⟩ := hall 0 (by simp)
  set o0 := (((NodeInterp.new nitermax tolpos).setSrcGrid ![13, 2] (fun _ => 0) wideCoords).setDstGrid ![1, 1]
      (fun i _ => ![52, 1 / 2] i)) with ho0
  have hs' : s = { finder := o0.finder, dIndices := NodeInterp.startIndices o0.srcCellDims, weights := [] } := by
    have : o0.before g 0 = .ok { finder := o0.finder, dIndices := NodeInterp.startIndices o0.srcCellDims, weights := [] } := rfl
    rw [this, Except.ok.injEq] at hs
    exact hs.symm
  have hst0 : (NodeInterp.startIndices o0.srcCellDims : Fin 2 → ℝ) 0 = 12 / (214423 / 100000) := by
    show ((12 : Nat) : ℝ) / (((214423 : Nat) : ℝ) / ((100000 : Nat) : ℝ)) = _
    norm_num
  have hst1 : (NodeInterp.startIndices o0.srcCellDims : Fin 2 → ℝ) 1 = 1 / (193265 / 100000) := by
    show ((1 : Nat) : ℝ) / (((193265 : Nat) : ℝ) / ((100000 : Nat) : ℝ)) = _
    norm_num
  have htg : InGrid ![13, 2] (![5 / 2, 1 / 2] : Fin 2 → ℝ) := fun i => by fin_cases i <;> norm_num
  have hloop := loop_bad g hg (by norm_num : 1 ≤ 2) (by norm_num) wide_good wide_grid ![5 / 2, 1 / 2] htg 0
    (fun u => u ≤ 3 / 2 ∨ 7 / 2 ≤ u) tolpos (by
      intro x hx hb
      obtain ⟨x0, x1⟩ := hx 0
      have x1 : x 0 ≤ 12 := by norm_num at x1; exact x1
      have key : newton ![13, 2] wideX ![5 / 2, 1 / 2] x 0 = 0 ∨ newton ![13, 2] wideX ![5 / 2, 1 / 2] x 0 = 12 := by
        unfold newton
        rcases hb with hb | hb
        · right
          have hs : Stretched.slope ![13, 2] wideX x 0 = 1 := by
            have hlt := hi_sub_lo ![13, 2] wide_good x hx 0
            unfold Stretched.slope
            rw [indsHi_at wide_good, indsLo_at] at hlt ⊢
            have e1 : min (x 0 + 1 / 2) (((![13, 2] 0 : Nat) : ℝ) - 1) = x 0 + 1 / 2 := min_eq_left (by norm_num; linarith)
            rw [e1] at hlt ⊢
            have e2 : axisPlace (![13, 2] 0) (wideX 0) (x 0 + 1 / 2) = x 0 + 1 / 2 := wide_left (by linarith) (by linarith)
            have e3 : axisPlace (![13, 2] 0) (wideX 0) (max (x 0 - 1 / 2) 0) = max (x 0 - 1 / 2) 0 :=
              wide_left (le_max_right _ _) (max_le (by linarith) (by norm_num))
            rw [e2, e3, div_self (sub_ne_zero.2 hlt.ne')]
          have e4 : axisPlace (![13, 2] 0) (wideX 0) (x 0) = x 0 := wide_left x0 (by linarith)
          have e5 : axisPlace (![13, 2] 0) (wideX 0) ((![5 / 2, 1 / 2] : Fin 2 → ℝ) 0) = 52 := wide_mid
          rw [hs, e4, e5, truncate_zero _ (by simp)]
          norm_num
        · left
          have hs : Stretched.slope ![13, 2] wideX x 0 = 1 := by
            have hlt := hi_sub_lo ![13, 2] wide_good x hx 0
            unfold Stretched.slope
            rw [indsHi_at wide_good, indsLo_at] at hlt ⊢
            have e1 : max (x 0 - 1 / 2) 0 = x 0 - 1 / 2 := max_eq_left (by linarith)
            rw [e1] at hlt ⊢
            have e0 : ((![13, 2] 0 : Nat) : ℝ) - 1 = 12 := by norm_num
            rw [e0] at hlt ⊢
            have e2 : axisPlace (![13, 2] 0) (wideX 0) (min (x 0 + 1 / 2) 12) = min (x 0 + 1 / 2) 12 + 99 :=
              wide_right (le_min (by linarith) (by norm_num)) (min_le_right _ _)
            have e3 : axisPlace (![13, 2] 0) (wideX 0) (x 0 - 1 / 2) = x 0 - 1 / 2 + 99 := wide_right (by linarith) (by linarith)
            rw [e2, e3, add_sub_add_right_eq_sub, div_self (sub_ne_zero.2 hlt.ne')]
          have e4 : axisPlace (![13, 2] 0) (wideX 0) (x 0) = x 0 + 99 := wide_right (by linarith) x1
          have e5 : axisPlace (![13, 2] 0) (wideX 0) ((![5 / 2, 1 / 2] : Fin 2 → ℝ) 0) = 52 := wide_mid
          rw [hs, e4, e5, truncate_zero _ (by simp)]
          have : x 0 + (52 - (x 0 + 99)) / 1 = -47 := by ring
          rw [this]
          norm_num
      refine ⟨by rcases key with k | k <;> rw [k] <;> norm_num, ?_⟩
      generalize newton ![13, 2] wideX ![5 / 2, 1 / 2] x = y at key
      have hy : 50 ≤ |stretchedPlace ![13, 2] wideX 0 1 y 0 - stretchedPlace ![13, 2] wideX 0 1 ![5 / 2, 1 / 2] 0| := by
        have e : stretchedPlace ![13, 2] wideX 0 1 y 0 = axisPlace 13 (wideX 0) (y 0) := by
          simp [stretchedPlace, Matrix.one_apply]
        rw [hplace, e]
        rcases key with k | k
        · rw [k, wide_left (le_refl _) (by norm_num)]
          norm_num
        · rw [k, wide_right (by norm_num) (le_refl _)]
          norm_num
      refine htol.trans (hy.trans ?_)
      unfold distance
      rw [← Real.sqrt_sq_eq_abs]
      exact Real.sqrt_le_sqrt (Finset.single_le_sum (f := fun i => (stretchedPlace ![13, 2] wideX 0 1 y i -
        stretchedPlace ![13, 2] wideX 0 1 ![5 / 2, 1 / 2] i) ^ 2) (fun i _ => sq_nonneg _) (Finset.mem_univ 0)))
  obtain ⟨code', s2, h1, h2, _⟩ := hloop o0.finder.fuelOf _ (on_start nitermax tolpos ![5 / 2, 1 / 2] (NodeInterp.startIndices o0.srcCellDims))
    (by
      intro i
      fin_cases i
      · show 0 ≤ (NodeInterp.startIndices o0.srcCellDims : Fin 2 → ℝ) 0 ∧ (NodeInterp.startIndices o0.srcCellDims : Fin 2 → ℝ) 0 ≤ _
        rw [hst0]; norm_num
      · show 0 ≤ (NodeInterp.startIndices o0.srcCellDims : Fin 2 → ℝ) 1 ∧ (NodeInterp.startIndices o0.srcCellDims : Fin 2 → ℝ) 1 ≤ _
        rw [hst1]; norm_num)
    (by
      right
      show 7 / 2 ≤ (NodeInterp.startIndices o0.srcCellDims : Fin 2 → ℝ) 0
      rw [hst0]; norm_num) rfl
  rw [hplace] at h1
  have hcode : code ≠ 0 := by
    intro hc
    rw [hc, hs'] at hf
    unfold NodeInterp.findTarget at hf
    have h1' : searchLoop g o0.finder.fuelOf (o0.finder.reset (NodeInterp.startIndices o0.srcCellDims) fun j => ![52, 1 / 2] j) =
      .ok (code', s2) := h1
    dsimp only at hf
    rw [h1'] at hf
    simp only [bind, Except.bind, pure, Except.pure, Except.ok.injEq, Prod.mk.injEq] at hf
    have hcd := NodeInterp.loop_code g _ _ _ _ h1
    have h0 : code' ≠ 0 := by
      refine C31_search_stops g o0.finder (NodeInterp.startIndices o0.srcCellDims) (fun j => ![52, 1 / 2] j) code' (s2.dIndices, s2.errorHistory) ?_
      unfold searchFrom
      have h1'' : searchLoop g (max o0.finder.nitermax 1).toNat (o0.finder.reset (NodeInterp.startIndices o0.srcCellDims)
        fun j => ![52, 1 / 2] j) = .ok (code', s2) := h1
      rw [h1'']
      rfl
    have := hf.1
    split_ifs at this with hp
    · omega
    · omega
  rw [List.eq_nil_iff_forall_not_mem]
  rintro ⟨k, iw⟩ hk
  have hk0 : k = 0 := by
    have := htab.dst _ hk
    simpa using this
  subst hk0
  exact hcode (hiff.1 ⟨iw, hk⟩)

/-! ### Examples -/

/-- The condition on the factor. -/
example : (1 : ℝ) ≤ 7 / 4 ∧ (7 / 4 : ℝ) * (7 / 4 - 1) ^ 2 ≤ 1 := by norm_num

/-- A grid of 3 times 2 nodes with axes along (3, 4) and (-4, 3); the spacing along the first one varies by the factor 7/4. -/
noncomputable def turnedX : Fin 2 → Nat → ℝ := fun i k => if i = 0 then ([0, 4, 11] : List ℝ).getD k 0 else k

noncomputable def turnedCoords : Fin 2 → Nat → ℝ := fun i k =>
  if i = 0 then 3 * turnedX 0 (k / 2) - 4 * turnedX 1 (k % 2) else 4 * turnedX 0 (k / 2) + 3 * turnedX 1 (k % 2)

theorem turned_grid : StretchedGrid ![3, 2] (7 / 4) turnedX 0 !![3, -4; 4, 3] turnedCoords where
  node m hm i := by
    have h1 : m 1 < 2 := hm 1
    have e : rowMajor ![3, 2] m = m 0 * 2 + m 1 := by rw [rowMajor_succ, rowMajor_succ]; simp [rowMajor]
    rw [e]
    unfold turnedCoords
    rw [show (m 0 * 2 + m 1) / 2 = m 0 by omega, show (m 0 * 2 + m 1) % 2 = m 1 by omega]
    fin_cases i <;> simp [Fin.sum_univ_two] <;> ring
  det := by norm_num [Matrix.det_fin_two_of]
  width j := by
    fin_cases j
    · refine ⟨4, by norm_num, fun k hk => ?_⟩
      have : k + 1 < 3 := hk
      have : k = 0 ∨ k = 1 := by omega
      rcases this with rfl | rfl <;> norm_num [turnedX]
    · refine ⟨1, by norm_num, fun k hk => ?_⟩
      norm_num [turnedX]

theorem turned_perp : Perpendicular (!![3, -4; 4, 3] : Matrix (Fin 2) (Fin 2) ℝ) := by
  intro j k hjk
  fin_cases j <;> fin_cases k <;> simp_all [Fin.sum_univ_two] <;> norm_num

/-- The hypotheses of `C99_found_partial` are met with the library `refGels`: 100 iterations and the tolerance 1/1000 are enough. -/
example (t d : Fin 2 → ℝ) (ht : InGrid ![3, 2] t) (hd : InGrid ![3, 2] d)
    (h : distance (stretchedPlace ![3, 2] turnedX 0 !![3, -4; 4, 3] d) (stretchedPlace ![3, 2] turnedX 0 !![3, -4; 4, 3] t) ≤ 100) :
    ∃ s' k, searchLoop refGels 100 (((Finder.new 100 (1 / 1000)).setGrid ![3, 2] (fun _ => 0) turnedCoords).reset d
        (stretchedPlace ![3, 2] turnedX 0 !![3, -4; 4, 3] t)) = .ok (1, s') ∧ 1 ≤ k ∧ k ≤ 50 ∧ s'.iter = (k : Nat) := by
  obtain ⟨s', k, h1, h2, h3, h4, _⟩ := C99_found_partial refGels refGels_contract (by norm_num) (by norm_num) (by norm_num)
    (fun i => by fin_cases i <;> simp) turned_grid turned_perp t d ht hd 50 (by norm_num) 100 (by norm_num) (1 / 1000) (by
      have h0 : (0 : ℝ) ≤ 7 / 4 * (7 / 4 - 1) ^ 50 := by norm_num
      refine (mul_le_mul_of_nonneg_left h h0).trans_lt ?_
      norm_num)
  exact ⟨s', k, h1, h2, h3, h4⟩

end Sg.Props
