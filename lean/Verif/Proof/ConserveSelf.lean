import Verif.Spec.Conform
import Verif.Proof.ConserveExact
/- Two cells with a common edge: the points that are collected, and the triangulation of them. -/
namespace Sg.Conserve
open Sg.LinearSolve Sg.Triangulate Sg.QuadIntersect Sg.Spec Sg.Plane Sg.Props MeasureTheory

/-! ### Corners and edges of a proper convex quadrilateral -/

theorem round1 : ∀ i : Fin 4, i + 3 + 1 = i := by decide
theorem round2 : ∀ i : Fin 4, i + 3 + 2 = i + 1 := by decide

theorem strict_off {q : Fin 4 → P2} (h : StrictQuad q) (i k : Fin 4) (h1 : k ≠ i) (h2 : k ≠ i + 1) :
    area2 (q i) (q (i + 1)) (q k) ≠ 0 := by
  have : k = i + 2 ∨ k = i + 3 := by revert i k; decide
  rcases this with rfl | rfl
  · exact h i
  · have := h (i + 3)
    rw [round1, round2] at this
    intro h0
    apply this
    rw [← h0]
    simp only [area2]
    ring

theorem strict_corner {q : Fin 4 → P2} (h : StrictQuad q) (i k : Fin 4) (h0 : area2 (q i) (q (i + 1)) (q k) = 0) :
    k = i ∨ k = i + 1 := by
  by_contra hcon
  push Not at hcon
  exact strict_off h i k hcon.1 hcon.2 h0

theorem area2_seg {a b p : P2} (h : p ∈ segment ℝ a b) : area2 a b p = 0 := by
  obtain ⟨u, v, -, -, huv, rfl⟩ := h
  simp only [area2, Prod.fst_add, Prod.snd_add, Prod.smul_fst, Prod.smul_snd, smul_eq_mul]
  have : v = 1 - u := by linarith
  subst this
  ring

/-- All the corners are on one side of an edge. -/
theorem convex_side {q : Fin 4 → P2} (h : ConvexQuad q) (i : Fin 4) :
    (∀ k, 0 ≤ area2 (q i) (q (i + 1)) (q k)) ∨ ∀ k, area2 (q i) (q (i + 1)) (q k) ≤ 0 := by
  have e : ∀ k, area2 (q i) (q (i + 1)) (q k) = 0 ∨ area2 (q i) (q (i + 1)) (q k) = area2 (q i) (q (i + 1)) (q (i + 2)) ∨
      area2 (q i) (q (i + 1)) (q k) = area2 (q (i + 3)) (q (i + 3 + 1)) (q (i + 3 + 2)) := by
    intro k
    have : k = i ∨ k = i + 1 ∨ k = i + 2 ∨ k = i + 3 := by revert i k; decide
    rcases this with rfl | rfl | rfl | rfl
    · left; simp only [area2]; ring
    · left; simp only [area2]; ring
    · right; left; rfl
    · right; right
      rw [round1, round2]
      simp only [area2]; ring
  rcases h.1 with h | h
  · left
    intro k
    rcases e k with e | e | e <;> rw [e]
    · exact h _
    · exact h _
  · right
    intro k
    rcases e k with e | e | e <;> rw [e]
    · exact h _
    · exact h _

/-- A point inside an edge that is on the line of another edge: it is the same edge. -/
theorem strict_edge {q : Fin 4 → P2} (h : ConvexQuad q) (h' : StrictQuad q) (i k : Fin 4) {p : P2}
    (hp : p ∈ openSegment ℝ (q k) (q (k + 1))) (h0 : area2 (q i) (q (i + 1)) p = 0) : k = i := by
  obtain ⟨u, v, hu, hv, huv, rfl⟩ := hp
  have e : area2 (q i) (q (i + 1)) (u • q k + v • q (k + 1)) =
      u * area2 (q i) (q (i + 1)) (q k) + v * area2 (q i) (q (i + 1)) (q (k + 1)) := by
    simp only [area2, Prod.fst_add, Prod.snd_add, Prod.smul_fst, Prod.smul_snd, smul_eq_mul]
    have : v = 1 - u := by linarith
    subst this
    ring
  rw [e] at h0
  have hz : area2 (q i) (q (i + 1)) (q k) = 0 ∧ area2 (q i) (q (i + 1)) (q (k + 1)) = 0 := by
    rcases convex_side h i with hs | hs
    · have h1 := mul_nonneg hu.le (hs k)
      have h2 := mul_nonneg hv.le (hs (k + 1))
      exact ⟨(mul_eq_zero.1 (le_antisymm (by linarith) h1)).resolve_left hu.ne',
        (mul_eq_zero.1 (le_antisymm (by linarith) h2)).resolve_left hv.ne'⟩
    · have h1 := mul_nonpos_of_nonneg_of_nonpos hu.le (hs k)
      have h2 := mul_nonpos_of_nonneg_of_nonpos hv.le (hs (k + 1))
      exact ⟨(mul_eq_zero.1 (le_antisymm h1 (by linarith))).resolve_left hu.ne',
        (mul_eq_zero.1 (le_antisymm h2 (by linarith))).resolve_left hv.ne'⟩
  have k1 := strict_corner h' i k hz.1
  have k2 := strict_corner h' i (k + 1) hz.2
  revert k1 k2
  clear * -
  revert i k
  decide

theorem corner_region (q : Fin 4 → P2) (k : Fin 4) : q k ∈ quadRegion q := subset_convexHull ℝ _ ⟨k, rfl⟩

theorem edge_region (q : Fin 4 → P2) (k : Fin 4) {p : P2} (hp : p ∈ openSegment ℝ (q k) (q (k + 1))) : p ∈ quadRegion q :=
  (convex_convexHull ℝ _).segment_subset (corner_region q k) (corner_region q (k + 1)) (openSegment_subset_segment _ _ _ hp)

/-! ### The points -/

/-- Which end of the edge the collected points are: the first end of the edge of the destination cell or not.  `o` tells whether the edge
of the source cell has the same direction. -/
def ends (i j : Fin 4) (o : Bool) : List Bool :=
  (List.range 4).flatMap fun k => (if node k = i then [true] else if node k = i + 1 then [false] else []) ++
    (List.range 4).flatMap fun m => if node m = j then [o] else if node m = j + 1 then [!o] else []

theorem ends_facts : ∀ (i j : Fin 4) (o : Bool), (ends i j o).length = 10 ∧ (ends i j o).count true = 5 ∧ (ends i j o).count false = 5 ∧
    ∃ k : Fin 9, (ends i j o)[k.val]? = (ends i j o)[k.val + 1]? := by decide

def pick (P Q : P2) (b : Bool) : P2 := if b then P else Q

theorem shared_points {g : Gels ℝ} (hg : GelsContract g) {d s : Quad ℝ} (hc : CleanCells d s) (hd : StrictQuad d) (hs : StrictQuad s)
    {i j : Fin 4} (o : Bool) (he : d i = pick (s j) (s (j + 1)) o ∧ d (i + 1) = pick (s j) (s (j + 1)) !o)
    (hsub : quadRegion d ∩ quadRegion s ⊆ segment ℝ (d i) (d (i + 1))) :
    pairPoints g d s = (ends i j o).map (pick (d i) (d (i + 1))) := by
  have hij : d i ≠ d (i + 1) := by
    intro h
    exact hd i (by simp only [area2, h]; ring)
  have hsj : s j = pick (d i) (d (i + 1)) o ∧ s (j + 1) = pick (d i) (d (i + 1)) !o := by
    cases o
    · exact ⟨he.2.symm, he.1.symm⟩
    · exact ⟨he.1.symm, he.2.symm⟩
  have line : ∀ p, p ∈ quadRegion d → p ∈ quadRegion s → area2 (d i) (d (i + 1)) p = 0 ∧ area2 (s j) (s (j + 1)) p = 0 := by
    intro p h1 h2
    have h0 := area2_seg (hsub ⟨h1, h2⟩)
    refine ⟨h0, ?_⟩
    rw [hsj.1, hsj.2]
    cases o
    · show area2 (d (i + 1)) (d i) p = 0
      have : area2 (d (i + 1)) (d i) p = - area2 (d i) (d (i + 1)) p := by simp only [area2]; ring
      rw [this, h0, neg_zero]
    · exact h0
  have hin : ∀ k, d k ∈ quadRegion s ↔ k = i ∨ k = i + 1 := by
    intro k
    constructor
    · intro h
      exact strict_corner hd i k (line _ (corner_region d k) h).1
    · rintro (rfl | rfl)
      · rw [he.1]; unfold pick; split <;> exact corner_region _ _
      · rw [he.2]; unfold pick; split <;> exact corner_region _ _
  have hin' : ∀ k, s k ∈ quadRegion d ↔ k = j ∨ k = j + 1 := by
    intro k
    constructor
    · intro h
      exact strict_corner hs j k (line _ h (corner_region s k)).2
    · rintro (rfl | rfl)
      · rw [hsj.1]; unfold pick; split <;> exact corner_region _ _
      · rw [hsj.2]; unfold pick; split <;> exact corner_region _ _
  have hn : ∀ k, nodeHit g d s k = (if node k = i then [true] else if node k = i + 1 then [false] else []).map (pick (d i) (d (i + 1))) := by
    intro k
    unfold nodeHit
    rw [if_congr ((inCell_iff hg hc.src (hc.clear.nodes12 (node k))).trans (hin (node k))) rfl rfl]
    by_cases h1 : node k = i
    · rw [if_pos (Or.inl h1), if_pos h1, h1]; rfl
    · by_cases h2 : node k = i + 1
      · rw [if_pos (Or.inr h2), if_neg h1, if_pos h2, h2]; rfl
      · rw [if_neg (by tauto), if_neg h1, if_neg h2]; rfl
  have hn' : ∀ k, nodeHit g s d k = (if node k = j then [o] else if node k = j + 1 then [!o] else []).map (pick (d i) (d (i + 1))) := by
    intro k
    unfold nodeHit
    rw [if_congr ((inCell_iff hg hc.dst (hc.clear.nodes21 (node k))).trans (hin' (node k))) rfl rfl]
    by_cases h1 : node k = j
    · rw [if_pos (Or.inl h1), if_pos h1, h1, hsj.1]; rfl
    · by_cases h2 : node k = j + 1
      · rw [if_pos (Or.inr h2), if_neg h1, if_pos h2, h2, hsj.2]; rfl
      · rw [if_neg (by tauto), if_neg h1, if_neg h2]; rfl
  have hx : ∀ k m, edgeHit g d s k m = [] := by
    intro k m
    unfold edgeHit
    rw [node_succ, node_succ]
    cases hX : edgeX g (d (node k)) (d (node k + 1)) (s (node m)) (s (node m + 1)) with
    | none => rfl
    | some p =>
      exfalso
      obtain ⟨h1, h2, h3⟩ := (edgeX_clear hg (hc.clear.edges (node k) (node m))).1 hX
      obtain ⟨l1, l2⟩ := line p (edge_region d _ h2) (edge_region s _ h3)
      have e1 := strict_edge hc.dst hd i (node k) h2 l1
      have e2 := strict_edge hc.src hs j (node m) h3 l2
      rw [e1, e2, hsj.1, hsj.2] at h1
      apply h1
      cases o
      · show (d (i + 1) - d i).1 * (d i - d (i + 1)).2 - (d (i + 1) - d i).2 * (d i - d (i + 1)).1 = 0
        simp only [Prod.fst_sub, Prod.snd_sub]; ring
      · show (d (i + 1) - d i).1 * (d (i + 1) - d i).2 - (d (i + 1) - d i).2 * (d (i + 1) - d i).1 = 0
        ring
  unfold pairPoints ends rowPoints
  simp only [hn, hn', hx, List.append_nil, List.map_flatMap, List.map_append]

/-! ### Order after the sort -/

theorem gravity_pick (P Q : P2) (n : ℝ) (L : List Bool) : ∀ c : P2,
    (L.map (pick P Q)).foldl (fun (c p : P2) => (c.1 + p.1 / n, c.2 + p.2 / n)) c =
      (c.1 + ((L.count true : ℝ) * (P.1 / n) + (L.count false : ℝ) * (Q.1 / n)),
        c.2 + ((L.count true : ℝ) * (P.2 / n) + (L.count false : ℝ) * (Q.2 / n))) := by
  induction L with
  | nil => intro c; simp
  | cons b L ih =>
    intro c
    rw [List.map_cons, List.foldl_cons, ih]
    cases b
    · simp only [pick, List.count_cons, beq_self_eq_true, if_true, Bool.false_eq_true, if_false, beq_iff_eq]
      refine Prod.ext ?_ ?_ <;> push_cast <;> simp <;> ring
    · simp only [pick, List.count_cons, beq_self_eq_true, if_true, beq_iff_eq]
      refine Prod.ext ?_ ?_ <;> push_cast <;> simp <;> ring

theorem shared_tied (P Q : P2) (L : List Bool) (h1 : L.length = 10) (h2 : L.count true = 5) (h3 : L.count false = 5) (b : Bool) :
    distanceSquareFromCenter (gravityCenter (L.map (pick P Q))) (pick P Q b) =
      distanceSquareFromCenter (gravityCenter (L.map (pick P Q))) P := by
  cases b
  · unfold gravityCenter
    rw [List.length_map, gravity_pick, h1, h2, h3]
    simp only [distanceSquareFromCenter, pick, Bool.false_eq_true, if_false]
    push_cast
    ring
  · rfl

theorem sort_of_tied {l s : List P2} (hk : KeepsTies l s) (hp : s.Perm l) {r : ℝ}
    (h : ∀ p ∈ l, distanceSquareFromCenter (gravityCenter l) p = r) : s = l := by
  have := hk r
  rw [List.filter_eq_self.2 (fun p hp' => decide_eq_true (h p (hp.mem_iff.1 hp'))), List.filter_eq_self.2 (fun p hp' => decide_eq_true (h p hp'))] at this
  exact this

/-! ### A point that is followed by itself is removed -/

theorem keepDistinct_short : ∀ (l : List P2) (p0 : P2), (keepDistinct p0 l).length ≤ l.length
  | [], _ => le_rfl
  | p :: l, p0 => by
    unfold keepDistinct
    split
    · simpa using keepDistinct_short l p
    · exact (keepDistinct_short l p0).trans (by simp)

theorem keepDistinct_dup : ∀ (k : Nat) (l : List P2) (p0 : P2), k + 1 < (p0 :: l).length → (p0 :: l)[k]? = (p0 :: l)[k + 1]? →
    (keepDistinct p0 l).length < l.length
  | 0, [], _, h, _ => by simp at h
  | 0, p :: l, p0, _, h => by
    have hp : p0 = p := by simpa using h
    subst hp
    unfold keepDistinct
    rw [if_neg (by rw [distanceSquare_eq, eps_real]; norm_num)]
    exact Nat.lt_succ_of_le (keepDistinct_short l p0)
  | k + 1, [], _, h, _ => by simp at h
  | k + 1, p :: l, p0, h, he => by
    unfold keepDistinct
    split
    · have := keepDistinct_dup k l p (by simpa using h) (by simpa using he)
      simpa using this
    · exact Nat.lt_succ_of_le (keepDistinct_short l p0)

theorem removed_dup (l : List P2) (k : Nat) (h : k + 1 < l.length) (he : l[k]? = l[k + 1]?) : (removeDegenerateSegments l).length < l.length := by
  cases l with
  | nil => simp at h
  | cons p l =>
    have := keepDistinct_dup k l p h he
    simp only [removeDegenerateSegments, List.length_cons]
    omega

/-! ### Safety of a pair -/

theorem pair_shared {g : Gels ℝ} (hg : GelsContract g) {sort : List P2 → List P2} (hsort : ∀ l, IsStdSort l (sort l)) (hst : StableShort sort)
    {d s : Quad ℝ} (hc : CleanCells d s) (hd : StrictQuad d) (hs : StrictQuad s) (h : ShareEdge d s) :
    ∃ a, hullArea .keptBuffer (sort (pairPoints g d s)) = .ok a := by
  obtain ⟨i, j, he, hsub⟩ := h
  obtain ⟨o, ho⟩ : ∃ o : Bool, d i = pick (s j) (s (j + 1)) o ∧ d (i + 1) = pick (s j) (s (j + 1)) !o := by
    rcases he with he | he
    · exact ⟨true, he⟩
    · exact ⟨false, he⟩
  have hpts := shared_points hg hc hd hs o ho hsub
  obtain ⟨f1, f2, f3, k, f4⟩ := ends_facts i j o
  have hlen : (pairPoints g d s).length = 10 := by rw [hpts, List.length_map, f1]
  have hself : sort (pairPoints g d s) = pairPoints g d s := by
    refine sort_of_tied (hst _ (by omega)) (hsort _).1 (r := distanceSquareFromCenter (gravityCenter (pairPoints g d s)) (d i)) ?_
    intro p hp
    rw [hpts] at hp ⊢
    obtain ⟨b, -, rfl⟩ := List.mem_map.1 hp
    exact shared_tied _ _ _ f1 f2 f3 b
  rw [hself]
  rcases hullArea_run .keptBuffer (pairPoints g d s) rfl (by rw [ptsOf_pairPoints hg hc]; exact hc.points)
    (by rw [ptsOf_pairPoints hg hc]; exact corner_convexPosition hc.dst hc.src) with ⟨a, e, -⟩ | ⟨-, -, hsz, -⟩
  · exact ⟨a, e⟩
  · exfalso
    have := removed_dup (pairPoints g d s) k (by have := k.2; omega) (by rw [hpts, List.getElem?_map, List.getElem?_map, f4])
    change (removeDegenerateSegments _).length = _ at hsz
    omega

section table
variable {g : Gels ℝ} (hg : GelsContract g) {dst src : Grid ℝ} {dp sp : Nat → P2} (hd : dst.Has dp) (hs : src.Has sp)
  {sort : List P2 → List P2} (hsort : ∀ l, IsStdSort l (sort l)) {mode : Mode}
  (hc : ∀ i < dst.numCells, ∀ j < src.numCells, CleanCells (dst.cellQuad dp i) (src.cellQuad sp j))
include hg hd hs hsort hc

theorem scratchTable_pairs
    (hover : ∀ i < dst.numCells, ∀ j < src.numCells, ∃ a, hullArea .keptBuffer (sort (pairPoints g (dst.cellQuad dp i) (src.cellQuad sp j))) = .ok a)
    (hn : 0 < src.numCells) : ∃ t, scratchTable g sort .keptBuffer src dst = .ok t := by
  unfold scratchTable
  refine (forN_inv (fun _ _ => True) _ _ _ trivial ?_).imp fun _ h => h.1
  intro i t hi _
  rw [dst.quadCoord_ok dp hd hi]
  simp only [bind, Except.bind]
  have : ∃ l, scratchCell g sort .keptBuffer src (dst.cellQuad dp i) = .ok l := by
    unfold scratchCell
    rw [cell_area hsort (hc i hi 0 hn).dst (hc i hi 0 hn).dstPoints]
    simp only [bind, Except.bind]
    refine (forN_inv (fun _ _ => True) _ _ _ trivial ?_).imp fun _ h => h.1
    intro j l hj _
    rw [src.quadCoord_ok sp hs hj]
    simp only
    split
    · rw [scratchPoints_ok g (keepsSizes hg)]
      simp only
      split
      · obtain ⟨a, ha⟩ := hover i hi j hj
        rw [ha]
        exact ⟨_, rfl, trivial⟩
      · exact ⟨_, rfl, trivial⟩
    · exact ⟨_, rfl, trivial⟩
  obtain ⟨l, hl⟩ := this
  rw [hl]
  exact ⟨_, rfl, trivial⟩

end table
end Sg.Conserve
