import Verif.Proof.Tensor
/-
Property C70: the flow of a potential.  `g` is the linear algebra library, `srt` is `std::sort` and `pert` the perturbation of
the nodes of the line.
-/
namespace Sg.Props
open Sg Sg.FlowInterp Sg.QuadIntersect Sg.QuadFlows Sg.LinearSolve Sg.Triangulate Sg.FindPoint Sg.QuadLine Sg.Spec

section exact
set_option linter.unusedSectionVars false
variable {K : Type} [Field K] [LinearOrder K] [IsStrictOrderedRing K] [FloorRing K] [FOps K] [FOpsLaws K]

theorem cellOf_eq (n1 : Nat) (xs ys : List K) (k : Nat) :
    cellOf n1 (nodeAt xs ys) k = gridQuad n1 xs ys (k / (n1 - 1)) (k % (n1 - 1)) := by
  funext c
  fin_cases c <;> rfl

theorem cellEdges_potential {n0 n1 : Nat} {phi : Nat → Nat → K} {x y : List K} (h : PotentialData n0 n1 phi x y) {k : Nat}
    (hk : k < (n0 - 1) * (n1 - 1)) :
    cellEdges n0 n1 x y k = edgeDiff (cellPhi phi (k / (n1 - 1)) (k % (n1 - 1))) := by
  obtain ⟨h1, h2, h3, h4⟩ := cell_split hk
  funext e
  unfold cellEdges
  rw [Nat.mod_eq_of_lt h3]
  fin_cases e
  · exact h.xs _ _ h3 (by omega)
  · exact h.xs _ _ h3 (by omega)
  · exact h.ys _ _ (by omega) h4
  · exact h.ys _ _ (by omega) h4

theorem sum_map_range (f : Nat → K) (n : Nat) : ((List.range n).map f).sum = ∑ j ∈ Finset.range n, f j := by
  induction n with
  | zero => rfl
  | succ n ih => rw [List.range_succ, List.map_append, List.sum_append, ih, Finset.sum_range_succ]; simp

/-- Setting both grids, computing the weights and applying them, with a new object. -/
theorem flow_data (pert : Nat → Nat → Nat → K) (g : Gels K)
    (hg : ∀ r : GelsArgs K, (g r).a.length = r.a.length ∧ (g r).b.length = r.b.length) (srt : List K → List K)
    (n0 n1 : Nat) (h0 : 2 ≤ n0) (h1 : 2 ≤ n1) (hf : n0 * n1 ≤ 1073741824) (xs ys : List K)
    (hx : n0 * n1 ≤ xs.length) (hy : n0 * n1 ≤ ys.length) (n : Nat) (hn : 1 ≤ n) (us vs : List K) (hu : n ≤ us.length)
    (hv : n ≤ vs.length) :
    ∃ S : Nat → Nat → List (Nat × (Fin 4 → K)),
      (∀ i < n - 1, ∀ j < (n0 - 1) * (n1 - 1), CellSpec g srt (gridQuad n1 xs ys (j / (n1 - 1)) (j % (n1 - 1)))
        (movedNode pert n us vs i) (movedNode pert n us vs (i + 1)) j (S i j)) ∧
      ∀ x y : List K, (n0 - 1) * n1 ≤ x.length → n0 * (n1 - 1) ≤ y.length → ∀ d : List K, n - 1 ≤ d.length →
        ∃ d', flowWith pert g srt [] n0 n1 xs ys n us vs 1 x y d = .ok d' ∧ d'.length = d.length ∧
          (∀ i, n - 1 ≤ i → d'[i]? = d[i]?) ∧
          ∀ i < n - 1, d'[i]? = if (List.range ((n0 - 1) * (n1 - 1))).flatMap (S i) = [] then d[i]? else
            some (∑ j ∈ Finset.range ((n0 - 1) * (n1 - 1)), ((S i j).map fun c => flowDot c.2 (cellEdges n0 n1 x y j)).sum) := by
  obtain ⟨s, es, hs⟩ := setSrcGrid_ok (Flow.new : Flow K) (by omega) (by omega) hf hx hy
  obtain ⟨t, et, ht⟩ := setDstGrid_ok pert { (Flow.new : Flow K) with src := some s } hn hu hv
  obtain ⟨o1, S, e1, s1, d1, t1, hS, hE⟩ := compute_spec hg srt hs ht
    ({ src := some s, dst := some t, weights := [] } : Flow K) rfl rfl tableOk_nil
  have hin := (compute_table e1).2.2.2 (n - 1) ((n0 - 1) * (n1 - 1))
    (fun d hd => by cases hd; exact ht.numCells.le) (fun d hd => by cases hd; exact hs.numCells.le) (tableIn_nil _ _)
  have hle : (n0 - 1) * (n1 - 1) ≤ n0 * n1 := Nat.mul_le_mul (by omega) (by omega)
  refine ⟨S, fun i hi j hj => by rw [← cellOf_eq]; exact hS i hi j hj, ?_⟩
  intro x y hxl hyl d hd
  obtain ⟨d', ed, hl, hv'⟩ := apply_ok hs h0 h1 ⟨hxl, hyl⟩ o1 s1 t1 d (fun e he => by
    have := hin.lt e he
    refine ⟨this.1.trans_le hd, fun c hc => ?_⟩
    have := this.2 c hc
    omega)
  refine ⟨d', ?_, hl, fun i hi => ?_, fun i hi => ?_⟩
  · unfold flowWith
    refine bind_eq ?_ ed
    simp only [List.nil_append, List.cons_append, runFlowCalls, FlowCall.exec, List.replicate_succ, List.replicate_zero]
    exact bind_eq es (bind_eq et (bind_eq e1 rfl))
  · have hent : entries o1.weights i = [] := by rw [hE i, if_neg (by omega)]; rfl
    rw [hv' i, if_pos hent]
  · have hent : entries o1.weights i = (List.range ((n0 - 1) * (n1 - 1))).flatMap (S i) := by
      rw [hE i, if_pos hi]; rfl
    rw [hv' i, hent]
    by_cases he : (List.range ((n0 - 1) * (n1 - 1))).flatMap (S i) = []
    · rw [if_pos he, if_pos he]
    · rw [if_neg he, if_neg he]
      congr 1
      rw [flowSum_eq, sum_flatMap_range]
      refine Finset.sum_congr rfl fun j hj => ?_
      rw [Finset.mem_range] at hj
      congr 1
      refine List.map_congr_left fun c hc => ?_
      have : c.1 = j := by
        rcases hS i hi j hj with ⟨-, -, s0, -, e⟩ | ⟨-, e⟩
        · rw [e, List.mem_singleton] at hc; rw [hc]
        · rw [e] at hc; cases hc
      rw [this]

theorem flow_once (pert : Nat → Nat → Nat → K) (g : Gels K)
    (hg : ∀ r : GelsArgs K, (g r).a.length = r.a.length ∧ (g r).b.length = r.b.length) (srt : List K → List K)
    (n0 n1 : Nat) (h0 : 2 ≤ n0) (h1 : 2 ≤ n1) (hf : n0 * n1 ≤ 1073741824) (xs ys : List K)
    (hx : n0 * n1 ≤ xs.length) (hy : n0 * n1 ≤ ys.length) (n : Nat) (hn : 1 ≤ n) (us vs : List K) (hu : n ≤ us.length)
    (hv : n ≤ vs.length) :
    ∃ S : Nat → Nat → List (Nat × (Fin 4 → K)),
      (∀ i < n - 1, ∀ j < (n0 - 1) * (n1 - 1), CellSpec g srt (gridQuad n1 xs ys (j / (n1 - 1)) (j % (n1 - 1)))
        (movedNode pert n us vs i) (movedNode pert n us vs (i + 1)) j (S i j)) ∧
      ∀ phi x y, PotentialData n0 n1 phi x y → ∀ d : List K, n - 1 ≤ d.length →
        ∃ d', flowWith pert g srt [] n0 n1 xs ys n us vs 1 x y d = .ok d' ∧ d'.length = d.length ∧
          (∀ i, n - 1 ≤ i → d'[i]? = d[i]?) ∧
          ∀ i < n - 1, d'[i]? = if (List.range ((n0 - 1) * (n1 - 1))).flatMap (S i) = [] then d[i]? else
            some (∑ j ∈ Finset.range ((n0 - 1) * (n1 - 1)), ((S i j).map fun c =>
              flowDot c.2 (edgeDiff (cellPhi phi (j / (n1 - 1)) (j % (n1 - 1))))).sum) := by
  obtain ⟨S, hS, hrun⟩ := flow_data pert g hg srt n0 n1 h0 h1 hf xs ys hx hy n hn us vs hu hv
  refine ⟨S, hS, fun phi x y hp d hd => ?_⟩
  obtain ⟨d', e, hl, hb, hs⟩ := hrun x y hp.lenx hp.leny d hd
  refine ⟨d', e, hl, hb, fun i hi => ?_⟩
  rw [hs i hi]
  split_ifs
  · rfl
  · congr 1
    refine Finset.sum_congr rfl fun j hj => ?_
    rw [cellEdges_potential hp (Finset.mem_range.mp hj)]

/-- **C70**, any grid: for every source grid and line there are, for each segment `i`, a list of cells, without repetition, and
for each of them two index positions in the cell (where the part of the segment in it begins and ends) such that, whatever the
potential: the flow is the sum over the cells of the differences of the bilinear interpolants of the potential at the two
positions.  Segments without cells are not written. -/
theorem C70_cells (pert : Nat → Nat → Nat → K) (g : Gels K)
    (hg : ∀ r : GelsArgs K, (g r).a.length = r.a.length ∧ (g r).b.length = r.b.length) (srt : List K → List K)
    (n0 n1 : Nat) (h0 : 2 ≤ n0) (h1 : 2 ≤ n1) (hf : n0 * n1 ≤ 1073741824) (xs ys : List K)
    (hx : n0 * n1 ≤ xs.length) (hy : n0 * n1 ≤ ys.length) (n : Nat) (hn : 1 ≤ n) (us vs : List K) (hu : n ≤ us.length)
    (hv : n ≤ vs.length) :
    ∃ (cells : Nat → List (Nat × Nat)) (A B : Nat → Nat × Nat → Fin 2 → K),
      (∀ i, (cells i).Nodup ∧ ∀ c ∈ cells i, c.1 < n0 - 1 ∧ c.2 < n1 - 1 ∧ InCell (A i c) ∧ InCell (B i c)) ∧
      ∀ phi x y, PotentialData n0 n1 phi x y → ∀ d : List K, n - 1 ≤ d.length →
        ∃ d', flowWith pert g srt [] n0 n1 xs ys n us vs 1 x y d = .ok d' ∧ d'.length = d.length ∧
          ∀ i, d'[i]? = if cells i = [] then d[i]? else
            some (((cells i).map fun c => bilin (cellPhi phi c.1 c.2) (B i c) - bilin (cellPhi phi c.1 c.2) (A i c)).sum) := by
  obtain ⟨S, hS, hrun⟩ := flow_once pert g hg srt n0 n1 h0 h1 hf xs ys hx hy n hn us vs hu hv
  set N := (n0 - 1) * (n1 - 1) with hN
  have key : ∀ i j, ∃ A B : Fin 2 → K, i < n - 1 → j < N → S i j ≠ [] → InCell A ∧ InCell B ∧
      ∀ v, ((S i j).map fun c => flowDot c.2 (edgeDiff v)).sum = bilin v B - bilin v A := by
    intro i j
    by_cases hij : i < n - 1 ∧ j < N
    · rcases hS i hij.1 j hij.2 with ⟨-, -, s0, hr, e⟩ | ⟨-, e⟩
      · set q := gridQuad n1 xs ys (j / (n1 - 1)) (j % (n1 - 1)) with hq
        have hq0 : HasQuad q (s0.setQuadPoints q).finder := hasQuad_set (flowsReached_finder g hr)
        have hin : ∀ p, InCell (foundX g (s0.setQuadPoints q).finder p) := fun p => by
          obtain ⟨_, _, _, _, _, h⟩ := foundX_eq g hg hq0 hq0 (sameGrid_refl _) p
          exact h
        refine ⟨foundX g (s0.setQuadPoints q).finder (((srt (collectedL g q (movedNode pert n us vs i)
            (movedNode pert n us vs (i + 1)))).map (linePoint (movedNode pert n us vs i) (movedNode pert n us vs (i + 1)))).getD 0 (0, 0)),
          foundX g (s0.setQuadPoints q).finder (((srt (collectedL g q (movedNode pert n us vs i)
            (movedNode pert n us vs (i + 1)))).map (linePoint (movedNode pert n us vs i) (movedNode pert n us vs (i + 1)))).getD
            ((srt (collectedL g q (movedNode pert n us vs i) (movedNode pert n us vs (i + 1)))).length - 1) (0, 0)),
          fun _ _ _ => ⟨hin _, hin _, fun v => ?_⟩⟩
        rw [e]
        simp only [List.map_cons, List.map_nil, List.sum_cons, List.sum_nil, add_zero]
        exact pieceSum_potential _ _ _ v
      · exact ⟨fun _ => 0, fun _ => 0, fun _ _ h => absurd e h⟩
    · exact ⟨fun _ => 0, fun _ => 0, fun h1 h2 => absurd ⟨h1, h2⟩ hij⟩
  choose A B hAB using key
  set vis : Nat → List Nat := fun i => if i < n - 1 then (List.range N).filter fun j => !(S i j).isEmpty else [] with hvis
  have hm : ∀ i j, j ∈ vis i ↔ i < n - 1 ∧ j < N ∧ S i j ≠ [] := by
    intro i j
    rw [hvis]
    dsimp only
    split_ifs with h
    · simp [h]
    · simp [h]
  have hback : ∀ j < N, (j / (n1 - 1)) * (n1 - 1) + j % (n1 - 1) = j := fun j _ => Nat.div_add_mod' j (n1 - 1)
  refine ⟨fun i => (vis i).map fun j => (j / (n1 - 1), j % (n1 - 1)), fun i c => A i (c.1 * (n1 - 1) + c.2),
    fun i c => B i (c.1 * (n1 - 1) + c.2), fun i => ⟨?_, ?_⟩, ?_⟩
  · refine List.Nodup.map_on ?_ ?_
    · intro j hj k hk e
      simp only [Prod.mk.injEq] at e
      rw [← hback j ((hm i j).mp hj).2.1, ← hback k ((hm i k).mp hk).2.1, e.1, e.2]
    · rw [hvis]
      dsimp only
      split_ifs
      · exact List.nodup_range.filter _
      · exact List.nodup_nil
  · intro c hc
    obtain ⟨j, hj, rfl⟩ := List.mem_map.mp hc
    obtain ⟨h1, h2, h3⟩ := (hm i j).mp hj
    obtain ⟨-, -, h4, h5⟩ := cell_split h2
    dsimp only
    rw [hback j h2]
    exact ⟨h4, h5, (hAB i j h1 h2 h3).1, (hAB i j h1 h2 h3).2.1⟩
  · intro phi x y hp d hd
    obtain ⟨d', e, hl, hbig, hsm⟩ := hrun phi x y hp d hd
    refine ⟨d', e, hl, fun i => ?_⟩
    by_cases hi : i < n - 1
    · rw [hsm i hi]
      have hiff : (List.range N).flatMap (S i) = [] ↔ (vis i).map (fun j => (j / (n1 - 1), j % (n1 - 1))) = [] := by
        rw [List.flatMap_eq_nil_iff, List.map_eq_nil_iff, List.eq_nil_iff_forall_not_mem]
        constructor
        · intro h j hj
          obtain ⟨-, h2, h3⟩ := (hm i j).mp hj
          exact h3 (h j (List.mem_range.mpr h2))
        · intro h j hj
          by_contra h3
          exact h j ((hm i j).mpr ⟨hi, List.mem_range.mp hj, h3⟩)
      by_cases hc : (List.range N).flatMap (S i) = []
      · rw [if_pos hc, if_pos (hiff.mp hc)]
      · rw [if_neg hc, if_neg (fun h => hc (hiff.mpr h))]
        congr 1
        rw [List.map_map]
        have hv2 : vis i = (List.range N).filter fun j => !(S i j).isEmpty := by rw [hvis]; exact if_pos hi
        have hconv : ∀ (f g' : Nat → K) (l : List Nat), (∀ j ∈ l, S i j = [] → f j = 0) → (∀ j ∈ l, S i j ≠ [] → f j = g' j) →
            (l.map f).sum = ((l.filter fun j => !(S i j).isEmpty).map g').sum := by
          intro f g' l
          induction l with
          | nil => intro _ _; rfl
          | cons j l ih =>
            intro z1 z2
            have := ih (fun j hj => z1 j (List.mem_cons_of_mem _ hj)) (fun j hj => z2 j (List.mem_cons_of_mem _ hj))
            rw [List.map_cons, List.sum_cons, this]
            by_cases hj : S i j = []
            · rw [z1 j (List.mem_cons_self ..) hj, zero_add, List.filter_cons_of_neg (by simp [hj])]
            · rw [List.filter_cons_of_pos (by simp [hj]), List.map_cons, List.sum_cons, z2 j (List.mem_cons_self ..) hj]
        rw [hv2, ← hconv (fun j => ((S i j).map fun c =>
              flowDot c.2 (edgeDiff (cellPhi phi (j / (n1 - 1)) (j % (n1 - 1))))).sum)]
        · exact (sum_map_range _ N).symm
        · intro j _ hj; rw [hj]; rfl
        · intro j hj hne
          have hjN := List.mem_range.mp hj
          dsimp only [Function.comp]
          rw [hback j hjN]
          exact (hAB i j hi hjN hne).2.2 _
    · rw [hbig i (by omega), if_pos]
      rw [hvis]
      dsimp only
      rw [if_neg hi]
      rfl

theorem telescope_list {α : Type} (P Q : α → K) : ∀ (l : List α) (c0 c1 : α), l.IsChain (fun c c' => Q c = P c') → l.head? = some c0 →
    l.getLast? = some c1 → (l.map fun c => Q c - P c).sum = Q c1 - P c0
  | [], _, _, _, h, _ => by cases h
  | [c], c0, c1, _, h, h' => by
    simp only [List.head?_cons, Option.some.injEq, List.getLast?_singleton] at h h'
    subst h h'
    simp
  | c :: c' :: l, c0, c1, hc, h, h' => by
    rw [List.isChain_cons_cons] at hc
    have ih := telescope_list P Q (c' :: l) c' c1 hc.2 rfl (by rw [List.getLast?_cons_cons] at h'; exact h')
    simp only [List.head?_cons, Option.some.injEq] at h
    subst h
    rw [List.map_cons, List.sum_cons, ih, hc.1]
    ring

/-- **C70**, any grid: if, in some order of the cells of a segment, the interpolated potential where the part in one cell ends is
that where the part in the next begins, the flow is the difference of the potential between the end and the beginning. -/
theorem C70_chain (pert : Nat → Nat → Nat → K) (g : Gels K)
    (hg : ∀ r : GelsArgs K, (g r).a.length = r.a.length ∧ (g r).b.length = r.b.length) (srt : List K → List K)
    (n0 n1 : Nat) (h0 : 2 ≤ n0) (h1 : 2 ≤ n1) (hf : n0 * n1 ≤ 1073741824) (xs ys : List K)
    (hx : n0 * n1 ≤ xs.length) (hy : n0 * n1 ≤ ys.length) (n : Nat) (hn : 1 ≤ n) (us vs : List K) (hu : n ≤ us.length)
    (hv : n ≤ vs.length) :
    ∃ (cells : Nat → List (Nat × Nat)) (A B : Nat → Nat × Nat → Fin 2 → K),
      (∀ i, (cells i).Nodup ∧ ∀ c ∈ cells i, c.1 < n0 - 1 ∧ c.2 < n1 - 1 ∧ InCell (A i c) ∧ InCell (B i c)) ∧
      ∀ phi x y, PotentialData n0 n1 phi x y → ∀ d : List K, n - 1 ≤ d.length →
        ∃ d', flowWith pert g srt [] n0 n1 xs ys n us vs 1 x y d = .ok d' ∧
          ∀ i (l : List (Nat × Nat)), l.Perm (cells i) →
            l.IsChain (fun c c' => bilin (cellPhi phi c.1 c.2) (B i c) = bilin (cellPhi phi c'.1 c'.2) (A i c')) →
            ∀ c0 c1, l.head? = some c0 → l.getLast? = some c1 →
              d'[i]? = some (bilin (cellPhi phi c1.1 c1.2) (B i c1) - bilin (cellPhi phi c0.1 c0.2) (A i c0)) := by
  obtain ⟨cells, A, B, hAB, hrun⟩ := C70_cells pert g hg srt n0 n1 h0 h1 hf xs ys hx hy n hn us vs hu hv
  refine ⟨cells, A, B, hAB, fun phi x y hp d hd => ?_⟩
  obtain ⟨d', e, -, hd'⟩ := hrun phi x y hp d hd
  refine ⟨d', e, fun i l hl hch c0 c1 e0 e1 => ?_⟩
  have hne : cells i ≠ [] := fun h => by
    rw [h, List.perm_nil] at hl
    rw [hl] at e0; cases e0
  rw [hd' i, if_neg hne]
  congr 1
  rw [← (hl.map _).sum_eq]
  exact telescope_list (fun c => bilin (cellPhi phi c.1 c.2) (A i c)) (fun c => bilin (cellPhi phi c.1 c.2) (B i c)) l c0 c1 hch e0 e1

end exact

/-- **C70**, cells that are parallelograms, in real numbers.  `Φ` is a function that in each cell is the bilinear interpolant of
the nodal potential.  If the segment is covered by cells, no two of which share more than a point of it, and no decision is
closer than the tolerance of the intersector, the flow is the difference of `Φ` between its ends. -/
theorem C70_parallelograms (pert : Nat → Nat → Nat → ℝ) (g : Gels ℝ) (hg : GelsContract g) (srt : List ℝ → List ℝ)
    (hsrt : ∀ l, SortsTo l (srt l)) (n0 n1 : Nat) (h0 : 2 ≤ n0) (h1 : 2 ≤ n1) (hf : n0 * n1 ≤ 1073741824) (xs ys : List ℝ)
    (hx : n0 * n1 ≤ xs.length) (hy : n0 * n1 ≤ ys.length) (n : Nat) (hn : 1 ≤ n) (us vs : List ℝ) (hu : n ≤ us.length)
    (hv : n ≤ vs.length) (hpar : ∀ i < n0 - 1, ∀ j < n1 - 1, Parallelogram (gridQuad n1 xs ys i j))
    (phi : Nat → Nat → ℝ) (x y : List ℝ) (hp : PotentialData n0 n1 phi x y) (Φ : ℝ × ℝ → ℝ)
    (hΦ : ∀ i < n0 - 1, ∀ j < n1 - 1, ∀ t, InCell t → Φ (at_ (gridQuad n1 xs ys i j) t) = bilin (cellPhi phi i j) t)
    (d : List ℝ) (hd : n - 1 ≤ d.length) :
    ∃ d', flowWith pert g srt [] n0 n1 xs ys n us vs 1 x y d = .ok d' ∧
      ∀ k < n - 1, ∀ a b, a = movedNode pert n us vs k → b = movedNode pert n us vs (k + 1) →
        (∀ p ∈ segment ℝ a b, ∃ i < n0 - 1, ∃ j < n1 - 1, p ∈ quadRegion (gridQuad n1 xs ys i j)) →
        (∀ i < n0 - 1, ∀ j < n1 - 1, ∀ i' < n0 - 1, ∀ j' < n1 - 1, (i, j) ≠ (i', j') →
          (insideParams (gridQuad n1 xs ys i j) a b ∩ insideParams (gridQuad n1 xs ys i' j') a b).Subsingleton) →
        (∀ i < n0 - 1, ∀ j < n1 - 1, ClearLine (gridQuad n1 xs ys i j) a b) → d'[k]? = some (Φ b - Φ a) := by
  obtain ⟨S, hS, hrun⟩ := flow_once pert g hg.sizes srt n0 n1 h0 h1 hf xs ys hx hy n hn us vs hu hv
  obtain ⟨d', e, -, -, hd'⟩ := hrun phi x y hp d hd
  refine ⟨d', e, fun k hk a b ea eb hcov honce hclear => ?_⟩
  subst ea eb
  have hsp : ∀ {k}, k < (n0 - 1) * (n1 - 1) → k / (n1 - 1) < n0 - 1 ∧ k % (n1 - 1) < n1 - 1 := fun hk => (cell_split hk).2.2
  obtain ⟨hne, hsum⟩ := cells_potential hg hsrt ((n0 - 1) * (n1 - 1)) (fun j => gridQuad n1 xs ys (j / (n1 - 1)) (j % (n1 - 1)))
    (fun j hj => hpar _ (hsp hj).1 _ (hsp hj).2) _ _ (fun j hj => hclear _ (hsp hj).1 _ (hsp hj).2) (S k) (hS k hk)
    (fun j => cellPhi phi (j / (n1 - 1)) (j % (n1 - 1))) Φ (fun j hj t ht => hΦ _ (hsp hj).1 _ (hsp hj).2 t ht)
    (by
      intro p hp
      obtain ⟨i, hi, j, hj, hr⟩ := hcov p hp
      refine ⟨i * (n1 - 1) + j, cell_lt hi hj, ?_⟩
      have e1 : (i * (n1 - 1) + j) / (n1 - 1) = i := by
        rw [Nat.add_comm, Nat.add_mul_div_right _ _ (by omega), Nat.div_eq_of_lt hj, Nat.zero_add]
      have e2 : (i * (n1 - 1) + j) % (n1 - 1) = j := by
        rw [Nat.add_comm, Nat.add_mul_mod_self_right, Nat.mod_eq_of_lt hj]
      beta_reduce
      rw [e1, e2]
      exact hr)
    (by
      intro i hi j hj hij
      refine honce _ (hsp hi).1 _ (hsp hi).2 _ (hsp hj).1 _ (hsp hj).2 fun he => hij ?_
      simp only [Prod.mk.injEq] at he
      rw [← Nat.div_add_mod' i (n1 - 1), ← Nat.div_add_mod' j (n1 - 1), he.1, he.2])
  rw [hd' k hk, if_neg hne, hsum]

/-- **C70** on a sheared product grid, in real numbers: if a segment of the line (as stored) has its ends in the grid, does not run
along a grid line inside the grid and no decision is closer than the tolerance of the intersector, its flow is the difference
of the interpolated potential between its ends. -/
theorem C70_tensor (pert : Nat → Nat → Nat → ℝ) (g : Gels ℝ) (hg : GelsContract g) (srt : List ℝ → List ℝ)
    (hsrt : ∀ l, SortsTo l (srt l)) (n0 n1 : Nat) (h0 : 2 ≤ n0) (h1 : 2 ≤ n1) (hf : n0 * n1 ≤ 1073741824) (xs ys : List ℝ)
    (hx : n0 * n1 ≤ xs.length) (hy : n0 * n1 ≤ ys.length) (n : Nat) (hn : 1 ≤ n) (us vs : List ℝ) (hu : n ≤ us.length)
    (hv : n ≤ vs.length) (X Y : Nat → ℝ) (c e0 e1 : ℝ × ℝ) (hT : TensorGrid n0 n1 X Y c e0 e1 xs ys)
    (phi : Nat → Nat → ℝ) (x y : List ℝ) (hp : PotentialData n0 n1 phi x y) (d : List ℝ) (hd : n - 1 ≤ d.length)
    (U V : Nat → ℝ) (hUV : ∀ k < n, movedNode pert n us vs k = c + U k • e0 + V k • e1) :
    ∃ d', flowWith pert g srt [] n0 n1 xs ys n us vs 1 x y d = .ok d' ∧
      ∀ k < n - 1,
        (X 0 ≤ U k ∧ U k ≤ X (n0 - 1)) → (X 0 ≤ U (k + 1) ∧ U (k + 1) ≤ X (n0 - 1)) →
        (Y 0 ≤ V k ∧ V k ≤ Y (n1 - 1)) → (Y 0 ≤ V (k + 1) ∧ V (k + 1) ≤ Y (n1 - 1)) →
        NotAlong n0 n1 X Y (U k) (V k) (U (k + 1)) (V (k + 1)) →
        (∀ i < n0 - 1, ∀ j < n1 - 1,
          ClearLine (gridQuad n1 xs ys i j) (movedNode pert n us vs k) (movedNode pert n us vs (k + 1))) →
        d'[k]? = some (tensorInterp n0 n1 X Y phi (U (k + 1)) (V (k + 1)) - tensorInterp n0 n1 X Y phi (U k) (V k)) := by
  obtain ⟨S, hS, hrun⟩ := flow_once pert g hg.sizes srt n0 n1 h0 h1 hf xs ys hx hy n hn us vs hu hv
  obtain ⟨d', e, -, -, hd'⟩ := hrun phi x y hp d hd
  refine ⟨d', e, fun k hk ha hb ha' hb' hna hclear => ?_⟩
  have hsp : ∀ {k}, k < (n0 - 1) * (n1 - 1) → k / (n1 - 1) < n0 - 1 ∧ k % (n1 - 1) < n1 - 1 := fun hk => (cell_split hk).2.2
  have ea := hUV k (by omega)
  have eb := hUV (k + 1) (by omega)
  obtain ⟨hne, hsum⟩ := cells_potential hg hsrt ((n0 - 1) * (n1 - 1)) (fun j => gridQuad n1 xs ys (j / (n1 - 1)) (j % (n1 - 1)))
    (fun j hj => tensor_parallelogram hT (hsp hj).1 (hsp hj).2) (movedNode pert n us vs k) (movedNode pert n us vs (k + 1))
    (fun j hj => hclear _ (hsp hj).1 _ (hsp hj).2) (S k) (hS k hk)
    (fun j => cellPhi phi (j / (n1 - 1)) (j % (n1 - 1))) (fun p => tensorInterp n0 n1 X Y phi (uOf c e0 e1 p) (vOf c e0 e1 p))
    (fun j hj t ht => tensor_phi hT phi (hsp hj).1 (hsp hj).2 ht)
    (by rw [ea, eb]; exact tensor_cover hT h0 h1 ha hb ha' hb')
    (by rw [ea, eb]; exact tensor_once hT hna)
  rw [hd' k hk, if_neg hne, hsum]
  rw [ea, eb, (uv_point hT.det _ _).1, (uv_point hT.det _ _).2, (uv_point hT.det _ _).1, (uv_point hT.det _ _).2]

/-- **C70** on a sheared product grid: if this holds for all the segments, the sum of the flows is the difference of the
interpolated potential between the ends of the line as stored, so zero if these are the same point. -/
theorem C70_loop (pert : Nat → Nat → Nat → ℝ) (g : Gels ℝ) (hg : GelsContract g) (srt : List ℝ → List ℝ)
    (hsrt : ∀ l, SortsTo l (srt l)) (n0 n1 : Nat) (h0 : 2 ≤ n0) (h1 : 2 ≤ n1) (hf : n0 * n1 ≤ 1073741824) (xs ys : List ℝ)
    (hx : n0 * n1 ≤ xs.length) (hy : n0 * n1 ≤ ys.length) (n : Nat) (hn : 1 ≤ n) (us vs : List ℝ) (hu : n ≤ us.length)
    (hv : n ≤ vs.length) (X Y : Nat → ℝ) (c e0 e1 : ℝ × ℝ) (hT : TensorGrid n0 n1 X Y c e0 e1 xs ys)
    (phi : Nat → Nat → ℝ) (x y : List ℝ) (hp : PotentialData n0 n1 phi x y) (d : List ℝ) (hd : n - 1 ≤ d.length)
    (U V : Nat → ℝ) (hUV : ∀ k < n, movedNode pert n us vs k = c + U k • e0 + V k • e1)
    (hin : ∀ k < n, (X 0 ≤ U k ∧ U k ≤ X (n0 - 1)) ∧ Y 0 ≤ V k ∧ V k ≤ Y (n1 - 1))
    (hna : ∀ k < n - 1, NotAlong n0 n1 X Y (U k) (V k) (U (k + 1)) (V (k + 1)))
    (hclear : ∀ k < n - 1, ∀ i < n0 - 1, ∀ j < n1 - 1,
      ClearLine (gridQuad n1 xs ys i j) (movedNode pert n us vs k) (movedNode pert n us vs (k + 1))) :
    ∃ d', flowWith pert g srt [] n0 n1 xs ys n us vs 1 x y d = .ok d' ∧
      (d'.take (n - 1)).sum = tensorInterp n0 n1 X Y phi (U (n - 1)) (V (n - 1)) - tensorInterp n0 n1 X Y phi (U 0) (V 0) ∧
      (movedNode pert n us vs 0 = movedNode pert n us vs (n - 1) → (d'.take (n - 1)).sum = 0) := by
  obtain ⟨d', e, hd'⟩ := C70_tensor pert g hg srt hsrt n0 n1 h0 h1 hf xs ys hx hy n hn us vs hu hv X Y c e0 e1 hT phi x y hp d hd U V hUV
  have hk : ∀ k < n - 1, d'[k]? = some (tensorInterp n0 n1 X Y phi (U (k + 1)) (V (k + 1)) - tensorInterp n0 n1 X Y phi (U k) (V k)) :=
    fun k hk => hd' k hk (hin k (by omega)).1 (hin (k + 1) (by omega)).1 (hin k (by omega)).2 (hin (k + 1) (by omega)).2
      (hna k hk) (hclear k hk)
  have hs : ∀ m, m ≤ n - 1 → (d'.take m).sum = tensorInterp n0 n1 X Y phi (U m) (V m) - tensorInterp n0 n1 X Y phi (U 0) (V 0) := by
    intro m
    induction m with
    | zero => intro _; simp
    | succ m ih =>
      intro hm
      rw [List.take_add_one, List.sum_append, ih (by omega), hk m (by omega)]
      simp
  refine ⟨d', e, hs _ le_rfl, fun hcl => ?_⟩
  rw [hs _ le_rfl]
  have eU := (uv_point (c := c) hT.det (U 0) (V 0))
  have eV := (uv_point (c := c) hT.det (U (n - 1)) (V (n - 1)))
  rw [← hUV 0 (by omega)] at eU
  rw [← hUV (n - 1) (by omega), ← hcl] at eV
  rw [← eU.1, ← eU.2, eV.1, eV.2, sub_self]

/-! ### A case -/

/-- The nodes of a cell of the grid of integers. -/
def zcell (i j : Nat) (c : Fin 4) : ℤ × ℤ := (((cellNode i j c).1 : ℤ), ((cellNode i j c).2 : ℤ))

theorem square_tensor : TensorGrid 3 3 (fun i => (i : ℝ)) (fun j => (j : ℝ)) (0, 0) (1, 0) (0, 1)
    [0, 0, 0, 1, 1, 1, 2, 2, 2] [0, 1, 2, 0, 1, 2, 0, 1, 2] := by
  refine ⟨fun i _ => by push_cast; linarith, fun i _ => by push_cast; linarith, by norm_num, ?_⟩
  intro i j hi hj
  interval_cases i <;> interval_cases j <;> simp [nodePlace]

/-- The closed line (0, 0), (2, 1), (1, 2), (0, 0) on the grid of 3 times 3 integer nodes, with the potential `i² + j`: all the
hypotheses of `C70_loop` hold, and the flows add up to zero. -/
example (g : Gels ℝ) (hg : GelsContract g) (srt : List ℝ → List ℝ) (hsrt : ∀ l, SortsTo l (srt l)) :
    ∃ d', flowWith noPert g srt [] 3 3 [0, 0, 0, 1, 1, 1, 2, 2, 2] [0, 1, 2, 0, 1, 2, 0, 1, 2] 4 [0, 2, 1, 0] [0, 1, 2, 0] 1
      [1, 1, 1, 3, 3, 3] [1, 1, 1, 1, 1, 1] [7, 7, 7] = .ok d' ∧ (d'.take 3).sum = 0 := by
  have hm : ∀ k, movedNode noPert 4 ([0, 2, 1, 0] : List ℝ) [0, 1, 2, 0] k = (([0, 2, 1, 0] : List ℝ).getD k 0, ([0, 1, 2, 0] : List ℝ).getD k 0) := by
    intro k; simp [movedNode, noPert]
  have hq : ∀ i < 2, ∀ j < 2, gridQuad 3 ([0, 0, 0, 1, 1, 1, 2, 2, 2] : List ℝ) [0, 1, 2, 0, 1, 2, 0, 1, 2] i j = zquad (zcell i j) := by
    intro i hi j hj
    funext c
    interval_cases i <;> interval_cases j <;> fin_cases c <;> simp [gridQuad, nodePlace, cellNode, zquad, zcell]
  obtain ⟨d', e, -, hz⟩ := C70_loop noPert g hg srt hsrt 3 3 (by norm_num) (by norm_num) (by norm_num) _ _ (by simp) (by simp) 4 (by norm_num)
    [0, 2, 1, 0] [0, 1, 2, 0] (by simp) (by simp) _ _ _ _ _ square_tensor (fun i j => (i : ℝ) ^ 2 + j)
    [1, 1, 1, 3, 3, 3] [1, 1, 1, 1, 1, 1] ⟨by simp, by simp, by
      intro i j hi hj
      have hi : i < 2 := hi
      interval_cases i <;> interval_cases j <;> simp [xEdge] <;> norm_num, by
      intro i j hi hj
      have hj : j < 2 := hj
      interval_cases i <;> interval_cases j <;> simp [yEdge] <;> norm_num⟩ [7, 7, 7] (by simp)
    (fun k => ([0, 2, 1, 0] : List ℝ).getD k 0) (fun k => ([0, 1, 2, 0] : List ℝ).getD k 0)
    (fun k _ => by rw [hm]; ext <;> simp)
    (by intro k hk; interval_cases k <;> norm_num)
    (by
      intro k hk
      have hk : k < 3 := hk
      constructor
      · intro i h0 h1
        obtain rfl : i = 1 := by omega
        interval_cases k <;> norm_num
      · intro i h0 h1
        obtain rfl : i = 1 := by omega
        interval_cases k <;> norm_num)
    (by
      intro k hk i hi j hj
      have hk : k < 3 := hk
      have hi : i < 2 := hi
      have hj : j < 2 := hj
      have hc : ZConvex (zcell i j) ∧ ZSmall (zcell i j) := by
        interval_cases i <;> interval_cases j <;> exact ⟨by decide, by decide⟩
      have := fun a b => clearLine_int hc.1 hc.2 a b
      rw [hq i hi j hj, hm, hm]
      interval_cases k
      · simpa using this (0, 0) (2, 1) (by norm_num) (by norm_num) (Or.inr (by decide))
      · simpa using this (2, 1) (1, 2) (by norm_num) (by norm_num) (Or.inr (by decide))
      · simpa using this (1, 2) (0, 0) (by norm_num) (by norm_num) (Or.inr (by decide)))
  exact ⟨d', e, hz (by rw [hm, hm]; simp)⟩

/-- **C70 is false for loops closed by the caller**: the perturbation moves the first and the last node by different amounts.  On one
square cell, with the potential `i`, the closed line (1/4, 1/4), (3/4, 1/4), (1/4, 1/4) has a total flow that is not zero (it is
`10 * 2^-52 * 0.0005` in size). -/
theorem C70_closed_refuted :
    ∃ u v : ℚ, flowWith pert3 Sg.Witness.cramerGels sortReal [] 2 2 [0, 0, 1, 1] [0, 1, 0, 1] 3 [1 / 4, 3 / 4, 1 / 4]
      [1 / 4, 1 / 4, 1 / 4] 1 [1, 1] [0, 0] [7, 7] = .ok [u, v] ∧ u + v ≠ 0 := by
  have h : (flowWith pert3 Sg.Witness.cramerGels sortReal [] 2 2 [0, 0, 1, 1] [0, 1, 0, 1] 3 [1 / 4, 3 / 4, 1 / 4]
      [1 / 4, 1 / 4, 1 / 4] 1 [1, 1] [0, 0] [7, 7] >>= fun d =>
      .ok (d.length, decide (d.getD 0 0 + d.getD 1 (0 : ℚ) = 0))) = .ok (2, false) := by decide +kernel
  obtain ⟨d, e, h⟩ := bind_ok_inv h
  simp only [Except.ok.injEq, Prod.mk.injEq, decide_eq_false_iff_not] at h
  obtain ⟨hl, hne⟩ := h
  obtain ⟨u, v, rfl⟩ : ∃ u v, d = [u, v] := by
    match d, hl with
    | [u, v], _ => exact ⟨u, v, rfl⟩
  exact ⟨u, v, e, hne⟩

end Sg.Props
