import Verif.Props.FlowSegments
import Verif.Props.MissingCorners
/-
Property C140: missing values (NaN) in the edge data of flow interpolation.  `g` is the linear algebra library, `srt` is
`std::sort` and `pert` the perturbation of the nodes of the line.
-/
namespace Sg.Props
open Sg Sg.FlowInterp Sg.QuadIntersect Sg.QuadFlows Sg.LinearSolve Sg.Triangulate Sg.FindPoint Sg.QuadLine Sg.Spec Sg.Ieee

/-- The object with weights computed in exact arithmetic, for data that may hold infinities and NaN. -/
def flowWithWeights {K : Type} [Field K] [LinearOrder K] (o : Flow K) : Flow (Ieee K) :=
  { src := o.src.map fun s => ⟨s.coords.map fin, s.numPoints, s.numCells, s.nodeIt, s.cellIt, s.edgeIt0, s.edgeIt1⟩
    dst := none
    weights := o.weights.map fun e => (e.1, e.2.map fun c => (c.1, fun m => fin (c.2 m))) }

/-- One of the four edges of the cell `(i, j)` has the value `v`. -/
def OnEdge {F : Type} (n1 : Nat) (x y : List F) (i j : Nat) (v : F) : Prop :=
  x[xEdge n1 i j]? = some v ∨ x[xEdge n1 i (j + 1)]? = some v ∨ y[yEdge n1 i j]? = some v ∨ y[yEdge n1 (i + 1) j]? = some v

/-- The four edges of the cell `(i, j)` have the finite values of `X` and `Y`. -/
def EdgesAre {K : Type} [Zero K] (n1 : Nat) (x y : List (Ieee K)) (X Y : List K) (i j : Nat) : Prop :=
  x[xEdge n1 i j]? = some (fin (X.getD (xEdge n1 i j) 0)) ∧ x[xEdge n1 i (j + 1)]? = some (fin (X.getD (xEdge n1 i (j + 1)) 0)) ∧
  y[yEdge n1 i j]? = some (fin (Y.getD (yEdge n1 i j) 0)) ∧ y[yEdge n1 (i + 1) j]? = some (fin (Y.getD (yEdge n1 (i + 1) j) 0))

section sums
variable {K : Type} [Field K] [LinearOrder K]

omit [Field K] [LinearOrder K] in
theorem entries_fin (t : Weights K) (k : Nat) :
    entries (t.map fun e => (e.1, e.2.map fun c => (c.1, fun m => (fin (c.2 m) : Ieee K)))) k =
      (entries t k).map fun c => (c.1, fun m => fin (c.2 m)) := by
  induction t with
  | nil => rfl
  | cons e t ih =>
    rw [List.map_cons]
    unfold entries
    split_ifs with h
    · rfl
    · exact ih

theorem addCell_from_nan (n0 n1 : Nat) (x y : List (Ieee K)) (c : Nat × (Fin 4 → Ieee K)) : addCell n0 n1 x y nan c = nan := by
  unfold addCell
  simp only [nan_add]

theorem addCell_nan {n0 n1 : Nat} {x y : List (Ieee K)} {c : Nat × (Fin 4 → Ieee K)} (hc : c.1 < (n0 - 1) * (n1 - 1))
    (h : OnEdge n1 x y (c.1 / (n1 - 1)) (c.1 % (n1 - 1)) nan) (acc : Ieee K) : addCell n0 n1 x y acc c = nan := by
  obtain ⟨-, -, h3, -⟩ := FlowInterp.cell_split hc
  unfold OnEdge xEdge yEdge at h
  unfold addCell
  simp only [Nat.mod_eq_of_lt h3, List.getD_eq_getElem?_getD]
  rcases h with h | h | h | h <;> rw [h] <;> simp only [Option.getD_some, mul_nan, add_nan, nan_add]

theorem flowSum_nan {n0 n1 : Nat} {x y : List (Ieee K)} (l : List (Nat × (Fin 4 → Ieee K))) {c : Nat × (Fin 4 → Ieee K)} (hm : c ∈ l)
    (hc : c.1 < (n0 - 1) * (n1 - 1)) (h : OnEdge n1 x y (c.1 / (n1 - 1)) (c.1 % (n1 - 1)) nan) : flowSum n0 n1 x y l = nan := by
  obtain ⟨l1, l2, rfl⟩ := List.append_of_mem hm
  unfold flowSum
  rw [List.foldl_append, List.foldl_cons, addCell_nan hc h]
  clear hm
  induction l2 with
  | nil => rfl
  | cons c l ih => rw [List.foldl_cons, addCell_from_nan, ih]

theorem flowSum_fin {n0 n1 : Nat} {x y : List (Ieee K)} {X Y : List K} (l : List (Nat × (Fin 4 → K)))
    (h : ∀ c ∈ l, c.1 < (n0 - 1) * (n1 - 1) ∧ EdgesAre n1 x y X Y (c.1 / (n1 - 1)) (c.1 % (n1 - 1))) :
    flowSum n0 n1 x y (l.map fun c => (c.1, fun m => fin (c.2 m))) = fin (flowSum n0 n1 X Y l) := by
  have gen : ∀ (l : List (Nat × (Fin 4 → K))) (a : K),
      (∀ c ∈ l, c.1 < (n0 - 1) * (n1 - 1) ∧ EdgesAre n1 x y X Y (c.1 / (n1 - 1)) (c.1 % (n1 - 1))) →
      (l.map fun c => (c.1, fun m => fin (c.2 m))).foldl (addCell n0 n1 x y) (fin a) = fin (l.foldl (addCell n0 n1 X Y) a) := by
    intro l
    induction l with
    | nil => intro a _; rfl
    | cons c l ih =>
      intro a h
      obtain ⟨hc, e1, e2, e3, e4⟩ := h c (List.mem_cons_self ..)
      obtain ⟨-, -, h3, -⟩ := FlowInterp.cell_split hc
      rw [List.map_cons, List.foldl_cons, List.foldl_cons, ← ih _ fun c hc => h c (List.mem_cons_of_mem _ hc)]
      congr 1
      unfold xEdge at e1 e2
      unfold yEdge at e3 e4
      unfold addCell
      simp only [Nat.mod_eq_of_lt h3]
      rw [List.getD_eq_getElem?_getD (l := x), List.getD_eq_getElem?_getD (l := x), List.getD_eq_getElem?_getD (l := y),
        List.getD_eq_getElem?_getD (l := y), e1, e2, e3, e4]
      simp only [Option.getD_some, fin_mul, fin_add]
  exact gen l 0 h

theorem srcOk_fin {n0 n1 : Nat} {p : Nat → Pt K} {s : Src K} (h : SrcOk n0 n1 p s) :
    SrcOk n0 n1 (fun k => ((fin (p k).1 : Ieee K), (fin (p k).2 : Ieee K)))
      ⟨s.coords.map fin, s.numPoints, s.numCells, s.nodeIt, s.cellIt, s.edgeIt0, s.edgeIt1⟩ := by
  refine ⟨h.pos0, h.pos1, h.fits, h.numCells, h.nodeIt, h.cellIt, h.edgeIt0, h.edgeIt1, fun k hk => ?_⟩
  have := h.read k hk
  unfold srcNodeCoord at this ⊢
  have hv : ∀ (l : List K) (i : Int), vgetI (l.map (fin : K → Ieee K)) i = (vgetI l i).map fin := by
    intro l i
    unfold vgetI vget
    split_ifs
    · rw [List.getElem?_map]
      cases l[i.toNat]? <;> rfl
    · rfl
  simp only [hv]
  revert this
  cases imul (k : Int) 2 with
  | error e => intro h; cases h
  | ok m =>
    simp only [bind, Except.bind, pure, Except.pure]
    cases vgetI s.coords (m + 0) with
    | error e => intro h; cases h
    | ok a =>
      simp only [Except.map]
      cases vgetI s.coords (m + 1) with
      | error e => intro h; cases h
      | ok b =>
        intro h
        have h : (a, b) = p k := Except.ok.inj h
        rw [← h]

end sums

theorem spec_cell {g : Gels ℝ} {srt : List ℝ → List ℝ} {q : Quad ℝ} {a b : Pt ℝ} {k : Nat} {l : List (Nat × (Fin 4 → ℝ))}
    (hl : CellSpec g srt q a b k l) : ∀ c ∈ l, c.1 = k := by
  intro c hc
  rcases hl with ⟨-, -, s0, -, e⟩ | ⟨-, e⟩
  · rw [e, List.mem_singleton] at hc; rw [hc]
  · rw [e] at hc; cases hc

/-- **C140, part**, weights in real numbers, convex cells.  The flow of a segment (as stored) is NaN if one of the four edges of a
cell in which it has more than a point has the value NaN.  If the values on the edges of all cells in which it has a point
are finite, and no decision is closer than the tolerance of the intersector, the flow is the one of exact arithmetic,
whatever the other edges have.  (That it depends on the edges of nonzero weight only is refuted by `C140_refuted`.) -/
theorem C140_cells_partial (pert : Nat → Nat → Nat → ℝ) (g : Gels ℝ) (hg : GelsContract g) (srt : List ℝ → List ℝ)
    (hsrt : ∀ l, SortsTo l (srt l)) (n0 n1 : Nat) (h0 : 2 ≤ n0) (h1 : 2 ≤ n1) (hf : n0 * n1 ≤ 1073741824) (xs ys : List ℝ)
    (hx : n0 * n1 ≤ xs.length) (hy : n0 * n1 ≤ ys.length) (n : Nat) (hn : 1 ≤ n) (us vs : List ℝ) (hu : n ≤ us.length)
    (hv : n ≤ vs.length) (hcv : ∀ i < n0 - 1, ∀ j < n1 - 1, ConvexQuad (gridQuad n1 xs ys i j)) :
    ∃ o, runFlowCalls pert g srt Flow.new [.setSrc n0 n1 xs ys, .setDst n us vs, .compute] = .ok o ∧
      ∀ x y d : List (Ieee ℝ), (n0 - 1) * n1 ≤ x.length → n0 * (n1 - 1) ≤ y.length → n - 1 ≤ d.length →
      ∃ d', (flowWithWeights o).apply x y d = .ok d' ∧ d'.length = d.length ∧ (∀ k, n - 1 ≤ k → d'[k]? = d[k]?) ∧
        ∀ k < n - 1, ∀ a b, a = movedNode pert n us vs k → b = movedNode pert n us vs (k + 1) →
          (∀ i < n0 - 1, ∀ j < n1 - 1, (insideParams (gridQuad n1 xs ys i j) a b).Nontrivial → OnEdge n1 x y i j nan →
            d'[k]? = some nan) ∧
          ((∃ i < n0 - 1, ∃ j < n1 - 1, (insideParams (gridQuad n1 xs ys i j) a b).Nontrivial) →
            (∀ i < n0 - 1, ∀ j < n1 - 1, ClearLine (gridQuad n1 xs ys i j) a b) →
            ∀ X Y D : List ℝ, (n0 - 1) * n1 ≤ X.length → n0 * (n1 - 1) ≤ Y.length → n - 1 ≤ D.length →
            (∀ i < n0 - 1, ∀ j < n1 - 1, (insideParams (gridQuad n1 xs ys i j) a b).Nonempty → EdgesAre n1 x y X Y i j) →
            ∃ D' f, flowWith pert g srt [] n0 n1 xs ys n us vs 1 X Y D = .ok D' ∧ D'[k]? = some f ∧ d'[k]? = some (fin f)) := by
  obtain ⟨s, es, hs⟩ := setSrcGrid_ok (Flow.new : Flow ℝ) (by omega) (by omega) hf hx hy
  obtain ⟨t, et, ht⟩ := setDstGrid_ok pert { (Flow.new : Flow ℝ) with src := some s } hn hu hv
  obtain ⟨o1, S, e1, s1, -, t1, hS, hE⟩ := compute_spec hg.sizes srt hs ht
    ({ src := some s, dst := some t, weights := [] } : Flow ℝ) rfl rfl tableOk_nil
  have hin := (compute_table e1).2.2.2 (n - 1) ((n0 - 1) * (n1 - 1))
    (fun d hd => by cases hd; exact ht.numCells.le) (fun d hd => by cases hd; exact hs.numCells.le) (tableIn_nil _ _)
  have hle : (n0 - 1) * (n1 - 1) ≤ n0 * n1 := Nat.mul_le_mul (by omega) (by omega)
  have hrun : runFlowCalls pert g srt Flow.new [.setSrc n0 n1 xs ys, .setDst n us vs, .compute] = .ok o1 := by
    simp only [runFlowCalls, FlowCall.exec]
    exact bind_eq es (bind_eq et (bind_eq e1 rfl))
  have hS' : ∀ i < n - 1, ∀ j < (n0 - 1) * (n1 - 1), CellSpec g srt (gridQuad n1 xs ys (j / (n1 - 1)) (j % (n1 - 1)))
        (movedNode pert n us vs i) (movedNode pert n us vs (i + 1)) j (S i j) :=
    fun i hi j hj => by rw [← cellOf_eq]; exact hS i hi j hj
  refine ⟨o1, hrun, fun x y d hxl hyl hd => ?_⟩
  obtain ⟨d', ed, hl, hv'⟩ := apply_ok (srcOk_fin hs) h0 h1 ⟨hxl, hyl⟩ (flowWithWeights o1) (by
      unfold flowWithWeights; rw [s1]; rfl) ⟨by
      have := t1.sorted
      show (o1.weights.map _).Pairwise _
      rw [List.pairwise_map]
      exact this, by
      intro e he
      obtain ⟨e', he', rfl⟩ := List.mem_map.1 he
      have := t1.nonempty e' he'
      simpa using this⟩ d (fun e he => by
      obtain ⟨e', he', rfl⟩ := List.mem_map.1 he
      have := hin.lt e' he'
      refine ⟨this.1.trans_le hd, fun c hc => ?_⟩
      obtain ⟨c', hc', rfl⟩ := List.mem_map.1 hc
      have := this.2 c' hc'
      dsimp only
      omega)
  have hent : ∀ k, entries (flowWithWeights o1).weights k = (entries o1.weights k).map fun c => (c.1, fun m => fin (c.2 m)) :=
    fun k => entries_fin o1.weights k
  have hentk : ∀ k < n - 1, entries o1.weights k = (List.range ((n0 - 1) * (n1 - 1))).flatMap (S k) := by
    intro k hk
    rw [hE k, if_pos hk]; rfl
  have hlist : ∀ k < n - 1, ∀ i < n0 - 1, ∀ j < n1 - 1,
      (insideParams (gridQuad n1 xs ys i j) (movedNode pert n us vs k) (movedNode pert n us vs (k + 1))).Nontrivial →
      ∃ c ∈ entries o1.weights k, c.1 = i * (n1 - 1) + j := by
    rintro k hk i hi j hj ⟨s, hs, t, ht, hst⟩
    have e1 : (i * (n1 - 1) + j) / (n1 - 1) = i := by
      rw [Nat.add_comm, Nat.add_mul_div_right _ _ (by omega), Nat.div_eq_of_lt hj, Nat.zero_add]
    have e2 : (i * (n1 - 1) + j) % (n1 - 1) = j := by
      rw [Nat.add_comm, Nat.add_mul_mod_self_right, Nat.mod_eq_of_lt hj]
    have hc := hS' k hk (i * (n1 - 1) + j) (FlowInterp.cell_lt hi hj)
    have hc' := hc
    rw [e1, e2] at hc'
    obtain ⟨c, hm⟩ := List.exists_mem_of_ne_nil _ (cell_stored hg hsrt (hcv i hi j hj) hc' hs ht hst)
    exact ⟨c, by rw [hentk k hk]; exact List.mem_flatMap.2 ⟨_, List.mem_range.2 (FlowInterp.cell_lt hi hj), hm⟩, spec_cell hc c hm⟩
  refine ⟨d', ed, hl, fun k hk => ?_, fun k hk a b ha hb => ?_⟩
  · rw [hv' k, if_pos]
    rw [hent k, hE k, if_neg (by omega)]; rfl
  subst ha hb
  constructor
  · intro i hi j hj hnt hon
    obtain ⟨c, hm, hc⟩ := hlist k hk i hi j hj hnt
    have hm' : ((c.1, fun m => fin (c.2 m)) : Nat × (Fin 4 → Ieee ℝ)) ∈ entries (flowWithWeights o1).weights k := by
      rw [hent k]; exact List.mem_map.2 ⟨c, hm, rfl⟩
    rw [hv' k, if_neg (List.ne_nil_of_mem hm')]
    congr 1
    refine flowSum_nan _ hm' (by dsimp only; rw [hc]; exact FlowInterp.cell_lt hi hj) ?_
    dsimp only
    rw [hc, Nat.add_comm, Nat.add_mul_div_right _ _ (by omega), Nat.div_eq_of_lt hj, Nat.zero_add,
      Nat.add_mul_mod_self_right, Nat.mod_eq_of_lt hj]
    exact hon
  · rintro ⟨i, hi, j, hj, hnt⟩ hclear X Y D hX hY hD hed
    obtain ⟨c, hm, -⟩ := hlist k hk i hi j hj hnt
    obtain ⟨D', eD, -, hvD⟩ := apply_ok hs h0 h1 ⟨hX, hY⟩ o1 s1 t1 D (fun e he => by
      have := hin.lt e he
      refine ⟨this.1.trans_le hD, fun c hc => ?_⟩
      have := this.2 c hc
      omega)
    have hne := List.ne_nil_of_mem hm
    refine ⟨D', flowSum n0 n1 X Y (entries o1.weights k), ?_, ?_, ?_⟩
    · unfold flowWith
      exact bind_eq hrun eD
    · rw [hvD k, if_neg hne]
    · rw [hv' k, if_neg (by rw [hent k]; simpa using hne)]
      congr 1
      rw [hent k]
      refine flowSum_fin _ fun c hc => ?_
      rw [hentk k hk] at hc
      obtain ⟨m, hm, hcm⟩ := List.mem_flatMap.1 hc
      have hm := List.mem_range.1 hm
      have hsp := hS' k hk m hm
      rw [spec_cell hsp c hcm]
      obtain ⟨-, -, h3, h4⟩ := FlowInterp.cell_split hm
      exact ⟨hm, hed _ h3 _ h4 (stored_inside hg hsrt (hcv _ h3 _ h4) (hclear _ h3 _ h4) hsp (List.ne_nil_of_mem hcm))⟩

/-- `std::sort` of the parameters. -/
def lineSort (l : List (Ieee ℚ)) : List (Ieee ℚ) := l.insertionSort fun p q => ¬ q < p

/-- **C140 is false** as stated: one square cell and the line along its bottom edge, whose weights are 1 for the bottom edge and
0 for the others.  With numbers on all edges the flow is the number on the bottom edge, here 5; if the value on the top edge is missing
it is NaN. -/
theorem C140_refuted :
    flowWith noPert nanGels2 lineSort [] 2 2 [0, 0, 1, 1] [0, 1, 0, 1] 2 [0, 1] [0, 0] 1 [fin 5, fin 3] [fin 2, fin 4] [fin 7] = .ok [fin (5 : ℚ)] ∧
    flowWith noPert nanGels2 lineSort [] 2 2 [0, 0, 1, 1] [0, 1, 0, 1] 2 [0, 1] [0, 0] 1 [fin 5, fin 8] [fin 9, fin 6] [fin 7] = .ok [fin (5 : ℚ)] ∧
    flowWith noPert nanGels2 lineSort [] 2 2 [0, 0, 1, 1] [0, 1, 0, 1] 2 [0, 1] [0, 0] 1 [fin 5, nan] [fin 2, fin 4] [fin 7] = .ok [(nan : Ieee ℚ)] := by
  refine ⟨?_, ?_, ?_⟩ <;> decide +kernel

/-- The hypotheses of `C140_cells_partial` hold: two by two squares and the line from (0, 0) to (2, 1).  A missing value on the edge
above the first square makes the flow NaN; missing values on the left and upper edges of the square above it, in which the line has no
point, do not. -/
example (g : Gels ℝ) (hg : GelsContract g) (srt : List ℝ → List ℝ) (hsrt : ∀ l, SortsTo l (srt l)) :
    ∃ o, runFlowCalls noPert g srt Flow.new [.setSrc 3 3 [0, 0, 0, 1, 1, 1, 2, 2, 2] [0, 1, 2, 0, 1, 2, 0, 1, 2], .setDst 2 [0, 2] [0, 1],
      .compute] = .ok o ∧
      (∃ d', (flowWithWeights o).apply [fin 1, nan, fin 3, fin 4, fin 5, fin 6] [fin 1, fin 2, fin 3, fin 4, fin 5, fin 6] [fin 7] = .ok d' ∧
        d'[0]? = some nan) ∧
      ∃ d' f, (flowWithWeights o).apply [fin 1, fin 2, nan, fin 4, fin 5, fin 6] [fin 1, nan, fin 3, fin 4, fin 5, fin 6] [fin 7] = .ok d' ∧
        d'[0]? = some (fin f) := by
  have hq : ∀ i < 2, ∀ j < 2, gridQuad 3 ([0, 0, 0, 1, 1, 1, 2, 2, 2] : List ℝ) [0, 1, 2, 0, 1, 2, 0, 1, 2] i j = zquad (zcell i j) := by
    intro i hi j hj
    funext c
    interval_cases i <;> interval_cases j <;> fin_cases c <;> simp [gridQuad, nodePlace, cellNode, zquad, zcell]
  have hnt : (insideParams (gridQuad 3 ([0, 0, 0, 1, 1, 1, 2, 2, 2] : List ℝ) [0, 1, 2, 0, 1, 2, 0, 1, 2] 0 0) (0, 0) (2, 1)).Nontrivial := by
    refine ⟨0, ⟨le_rfl, zero_le_one, ?_⟩, 1 / 2, ⟨by norm_num, by norm_num, ?_⟩, by norm_num⟩
    · have := at_region (gridQuad 3 ([0, 0, 0, 1, 1, 1, 2, 2, 2] : List ℝ) [0, 1, 2, 0, 1, 2, 0, 1, 2] 0 0) (x := fun _ => 0)
        (fun k => ⟨le_rfl, zero_le_one⟩)
      rw [at_affine (tensor_parallelogram square_tensor (by norm_num) (by norm_num))] at this
      simpa [gridQuad, nodePlace, cellNode] using this
    · have := at_region (gridQuad 3 ([0, 0, 0, 1, 1, 1, 2, 2, 2] : List ℝ) [0, 1, 2, 0, 1, 2, 0, 1, 2] 0 0)
        (x := fun k => if k = 0 then 1 else 1 / 2) (fun k => by dsimp only; split_ifs <;> norm_num)
      rw [at_affine (tensor_parallelogram square_tensor (by norm_num) (by norm_num))] at this
      simpa [gridQuad, nodePlace, cellNode] using this
  have hout : ¬ (insideParams (gridQuad 3 ([0, 0, 0, 1, 1, 1, 2, 2, 2] : List ℝ) [0, 1, 2, 0, 1, 2, 0, 1, 2] 0 1) (0, 0) (2, 1)).Nonempty := by
    rintro ⟨t, h0, h1, h⟩
    have := (tensor_region square_tensor (i := 0) (j := 1) (by norm_num) (by norm_num) (u := t * 2) (v := t)).1 (by
      have e : (0, 0) + (t * 2) • ((1, 0) : ℝ × ℝ) + t • ((0, 1) : ℝ × ℝ) = (0, 0) + t • ((2, 1) - (0, 0)) := by ext <;> simp
      rw [e]; exact h)
    norm_num at this
    linarith [this.1.2, this.2.1]
  have hm0 : ((0, 0) : ℝ × ℝ) = movedNode noPert 2 [0, 2] [0, 1] 0 := by simp [movedNode, noPert]
  have hm1 : ((2, 1) : ℝ × ℝ) = movedNode noPert 2 [0, 2] [0, 1] (0 + 1) := by simp [movedNode, noPert]
  obtain ⟨o, ho, h⟩ := C140_cells_partial noPert g hg srt hsrt 3 3 (by norm_num) (by norm_num) (by norm_num)
    [0, 0, 0, 1, 1, 1, 2, 2, 2] [0, 1, 2, 0, 1, 2, 0, 1, 2] (by simp) (by simp) 2 (by norm_num)
    [0, 2] [0, 1] (by simp) (by simp) (fun i hi j hj => convexQuad_of (tensor_parallelogram square_tensor hi hj))
  refine ⟨o, ho, ?_, ?_⟩
  · obtain ⟨d', e, -, -, hk⟩ := h [fin 1, nan, fin 3, fin 4, fin 5, fin 6] [fin 1, fin 2, fin 3, fin 4, fin 5, fin 6] [fin 7]
      (by simp) (by simp) (by simp)
    exact ⟨d', e, (hk 0 (by norm_num) _ _ hm0 hm1).1 0 (by norm_num) 0 (by norm_num) hnt (Or.inr (Or.inl rfl))⟩
  · obtain ⟨d', e, -, -, hk⟩ := h [fin 1, fin 2, nan, fin 4, fin 5, fin 6] [fin 1, nan, fin 3, fin 4, fin 5, fin 6] [fin 7]
      (by simp) (by simp) (by simp)
    obtain ⟨-, f, -, -, hf⟩ := (hk 0 (by norm_num) _ _ hm0 hm1).2 ⟨0, by norm_num, 0, by norm_num, hnt⟩ (by
        intro i hi j hj
        have hi : i < 2 := hi
        have hj : j < 2 := hj
        have hc : ZConvex (zcell i j) ∧ ZSmall (zcell i j) := by
          interval_cases i <;> interval_cases j <;> exact ⟨by decide, by decide⟩
        rw [hq i hi j hj]
        simpa using clearLine_int hc.1 hc.2 (0, 0) (2, 1) (by norm_num) (by norm_num) (Or.inr (by decide)))
      [1, 2, 0, 4, 5, 6] [1, 0, 3, 4, 5, 6] [7] (by simp) (by simp) (by simp) (by
        intro i hi j hj hne
        have hi : i < 2 := hi
        have hj : j < 2 := hj
        interval_cases i <;> interval_cases j
        · exact ⟨rfl, rfl, rfl, rfl⟩
        · exact absurd hne hout
        · exact ⟨rfl, rfl, rfl, rfl⟩
        · exact ⟨rfl, rfl, rfl, rfl⟩)
    exact ⟨d', f, e, hf⟩

end Sg.Props
