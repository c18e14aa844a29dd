import Verif.Props.OverlapRounding
/-
Property C153: the candidate cells of a polygon depend on the set of its vertices, and grow with it.
-/
namespace Sg.Props
open Sg Sg.FindPoint Sg.LinearSolve Sg.Spec Sg.FindOverlap Sg.NodeInterp

/-- Every vertex of the first polygon is one of the second. -/
def VerticesAmong {F : Type} (np : Nat) (pc : Nat → F) (nq : Nat) (qc : Nat → F) : Prop :=
  ∀ i < np, ∃ k < nq, qc (2 * k) = pc (2 * i) ∧ qc (2 * k + 1) = pc (2 * i + 1)

theorem among_point {F : Type} (pc qc : Nat → F) (i k : Nat) (h0 : qc (2 * k) = pc (2 * i)) (h1 : qc (2 * k + 1) = pc (2 * i + 1)) :
    (fun j : Fin 2 => qc (2 * k + j)) = fun j : Fin 2 => pc (2 * i + j) := by
  funext j
  fin_cases j
  · exact h0
  · exact h1

/-- Corners of more positions are further out. -/
theorem boxOf_mono {K : Type} [Field K] [LinearOrder K] [IsStrictOrderedRing K] (dims : Fin 2 → Nat) (p q : Nat → Fin 2 → K) (np nq : Nat)
    (c d : Corners K) (hp : BoxOf dims p np c) (hq : BoxOf dims q nq d) (h : ∀ i < np, ∃ k < nq, q k = p i) (j : Fin 2) : d.lo j ≤ c.lo j ∧ c.hi j ≤ d.hi j := by
  constructor
  · rcases hp.reached j with ⟨i, hi, e⟩ | e
    · obtain ⟨k, hk, e2⟩ := h i hi
      rw [e, ← e2]
      exact (hq.all k hk j).1
    · rw [e]; exact (hq.lo j).2
  · rcases hp.reachedHi j with ⟨i, hi, e⟩ | e
    · obtain ⟨k, hk, e2⟩ := h i hi
      rw [e, ← e2]
      exact (hq.all k hk j).2
    · rw [e]; exact (hq.hi j).1

section exact
variable {K : Type} [Field K] [LinearOrder K] [IsStrictOrderedRing K] [FloorRing K] [FOps K] [FOpsLaws K]

/-- **C153** On a grid, after any calls: if every vertex of a polygon is also a vertex of another one, the candidate cells of the first are among those of the second. -/
theorem C153_more_vertices (g : Gels K) (hg : FindPoint.KeepsSizes g) (dims : Fin 2 → Nat) (hd : ∀ i, 2 ≤ dims i)
    (hp : dims 0 * dims 1 ≤ 2147483647) (per : Fin 2 → Int) (coords : Fin 2 → Nat → K)
    (cs cs' : List (OverlapCall K)) (o o' : Overlap K)
    (hrun : runOverlap g ((FindOverlap.new : Overlap K).setSrcGrid dims per coords) cs = .ok o)
    (hrun' : runOverlap g ((FindOverlap.new : Overlap K).setSrcGrid dims per coords) cs' = .ok o')
    (np nq : Nat) (hnp : 1 ≤ np) (pc qc : Nat → K) (h : VerticesAmong np pc nq qc) :
    ∃ a b, (o.setPolygonPoints np pc).findSrcCellIndices g = .ok a ∧ (o'.setPolygonPoints nq qc).findSrcCellIndices g = .ok b ∧
      ∀ x ∈ a.srcCellFlatInds, x ∈ b.srcCellFlatInds := by
  have hs := runOverlap_set g hg dims per coords cs _ o (ovSet_grid dims per coords) hrun
  have hs' := runOverlap_set g hg dims per coords cs' _ o' (ovSet_grid dims per coords) hrun'
  have hnq : 1 ≤ nq := by obtain ⟨k, hk, -⟩ := h 0 hnp; omega
  obtain ⟨p, hpos, c, a, hb, ha, -, -, hma⟩ := find_ok g hg dims hd hp per coords o hs np hnp pc
  obtain ⟨q, hqos, d, b, hb', hb2, -, -, hmb⟩ := find_ok g hg dims hd hp per coords o' hs' nq hnq qc
  refine ⟨a, b, ha, hb2, fun x hx => ?_⟩
  have hsub : ∀ i < np, ∃ k < nq, q k = p i := by
    intro i hi
    obtain ⟨k, hk, h0, h1⟩ := h i hi
    obtain ⟨c1, l1, e1, -⟩ := hpos i hi
    obtain ⟨c2, l2, e2, -⟩ := hqos k hk
    rw [among_point pc qc i k h0 h1, e1] at e2
    simp only [Except.ok.injEq, Prod.mk.injEq] at e2
    exact ⟨k, hk, e2.2.1.symm⟩
  have hm := boxOf_mono dims p q np nq c d hb hb' hsub
  rw [hma] at hx
  rw [hmb]
  obtain ⟨i, j, ⟨hi0, hi1⟩, ⟨hj0, hj1⟩, rfl⟩ := hx
  refine ⟨i, j, ⟨(Int.floor_mono (hm 0).1).trans hi0, hi1.trans_le ?_⟩, ⟨(Int.floor_mono (hm 1).1).trans hj0, hj1.trans_le ?_⟩, rfl⟩
  · exact min_le_min_right _ (Int.ceil_mono (by linarith [(hm 0).2]))
  · exact min_le_min_right _ (Int.ceil_mono (by linarith [(hm 1).2]))

/-- **C153** The order, the first vertex and repetitions of the vertices do not matter: polygons with the same vertices have the same candidate cells. -/
theorem C153_same_vertices (g : Gels K) (hg : FindPoint.KeepsSizes g) (dims : Fin 2 → Nat) (hd : ∀ i, 2 ≤ dims i)
    (hp : dims 0 * dims 1 ≤ 2147483647) (per : Fin 2 → Int) (coords : Fin 2 → Nat → K)
    (cs cs' : List (OverlapCall K)) (o o' : Overlap K)
    (hrun : runOverlap g ((FindOverlap.new : Overlap K).setSrcGrid dims per coords) cs = .ok o)
    (hrun' : runOverlap g ((FindOverlap.new : Overlap K).setSrcGrid dims per coords) cs' = .ok o')
    (np nq : Nat) (hnp : 1 ≤ np) (pc qc : Nat → K) (h : VerticesAmong np pc nq qc) (h' : VerticesAmong nq qc np pc) :
    ∃ a b, (o.setPolygonPoints np pc).findSrcCellIndices g = .ok a ∧ (o'.setPolygonPoints nq qc).findSrcCellIndices g = .ok b ∧
      a.srcCellFlatInds.Perm b.srcCellFlatInds := by
  have hnq : 1 ≤ nq := by obtain ⟨k, hk, -⟩ := h 0 hnp; omega
  obtain ⟨a, b, ha, hb, hab⟩ := C153_more_vertices g hg dims hd hp per coords cs cs' o o' hrun hrun' np nq hnp pc qc h
  obtain ⟨b', a', hb', ha', hba⟩ := C153_more_vertices g hg dims hd hp per coords cs' cs o' o hrun' hrun nq np hnq qc pc h'
  obtain ⟨a2, ha2, na, -⟩ := C42_valid_box g hg dims hd hp per coords cs o hrun np hnp pc
  obtain ⟨b2, hb2, nb, -⟩ := C42_valid_box g hg dims hd hp per coords cs' o' hrun' nq hnq qc
  rw [ha, Except.ok.injEq] at ha' ha2
  rw [hb, Except.ok.injEq] at hb' hb2
  subst ha' ha2 hb' hb2
  exact ⟨a, b, ha, hb, (List.perm_ext_iff_of_nodup na nb).2 fun x => ⟨hab x, hba x⟩⟩
end exact

section rounded
variable {rnd : ℝ → ℝ}

/-- **C153** in rounded arithmetic, for every linear solver. -/
theorem C153_rounded {N : Nat} (hN : KeepsInts rnd N) (h31 : 2 ^ 31 ≤ N) (g : Gels (Fl rnd)) (hg : FindPoint.KeepsSizes g) (dims : Fin 2 → Nat)
    (hd : ∀ i, 2 ≤ dims i) (hp : dims 0 * dims 1 ≤ 2147483647) (per : Fin 2 → Int) (coords : Fin 2 → Nat → Fl rnd)
    (cs cs' : List (OverlapCall (Fl rnd))) (o o' : Overlap (Fl rnd))
    (hrun : runOverlap g ((FindOverlap.new : Overlap (Fl rnd)).setSrcGrid dims per coords) cs = .ok o)
    (hrun' : runOverlap g ((FindOverlap.new : Overlap (Fl rnd)).setSrcGrid dims per coords) cs' = .ok o')
    (np nq : Nat) (hnp : 1 ≤ np) (pc qc : Nat → Fl rnd) (h : VerticesAmong np pc nq qc) :
    ∃ a b, (o.setPolygonPoints np pc).findSrcCellIndices g = .ok a ∧ (o'.setPolygonPoints nq qc).findSrcCellIndices g = .ok b ∧
      (∀ x ∈ a.srcCellFlatInds, x ∈ b.srcCellFlatInds) ∧ (VerticesAmong nq qc np pc → a.srcCellFlatInds.Perm b.srcCellFlatInds) := by
  have hs := flOvSet_run g hg dims per coords cs _ o (flOvSet_grid dims per coords) hrun
  have hs' := flOvSet_run g hg dims per coords cs' _ o' (flOvSet_grid dims per coords) hrun'
  have hnq : 1 ≤ nq := by obtain ⟨k, hk, -⟩ := h 0 hnp; omega
  obtain ⟨p, hpos, c, a, hb, ha, na, -, hma⟩ := flFind_ok hN h31 g hg dims hd hp per coords o hs np hnp pc
  obtain ⟨q, hqos, d, b, hb', hb2, nb, -, hmb⟩ := flFind_ok hN h31 g hg dims hd hp per coords o' hs' nq hnq qc
  have key : ∀ (np nq : Nat) (pc qc : Nat → Fl rnd) (p q : Nat → Fin 2 → Fl rnd) (c d : Corners ℝ) (a b : Overlap (Fl rnd)),
      (∀ i < np, ∃ code h, vertexSearch g dims per coords (fun j => pc (2 * i + j)) = .ok (code, p i, h)) →
      (∀ i < nq, ∃ code h, vertexSearch g dims per coords (fun j => qc (2 * i + j)) = .ok (code, q i, h)) →
      BoxOf dims (fun i => vals (p i)) np c → BoxOf dims (fun i => vals (q i)) nq d →
      (∀ x, x ∈ a.srcCellFlatInds ↔ ∃ i j : Int,
          (⌊c.lo 0⌋ ≤ i ∧ i < min ⌈flTop rnd (c.hi 0)⌉ ((dims 0 : Int) - 1)) ∧
          (⌊c.lo 1⌋ ≤ j ∧ j < min ⌈flTop rnd (c.hi 1)⌉ ((dims 1 : Int) - 1)) ∧ x = i * dims 1 + j) →
      (∀ x, x ∈ b.srcCellFlatInds ↔ ∃ i j : Int,
          (⌊d.lo 0⌋ ≤ i ∧ i < min ⌈flTop rnd (d.hi 0)⌉ ((dims 0 : Int) - 1)) ∧
          (⌊d.lo 1⌋ ≤ j ∧ j < min ⌈flTop rnd (d.hi 1)⌉ ((dims 1 : Int) - 1)) ∧ x = i * dims 1 + j) →
      VerticesAmong np pc nq qc → ∀ x ∈ a.srcCellFlatInds, x ∈ b.srcCellFlatInds := by
    intro np nq pc qc p q c d a b hpos hqos hb hb' hma hmb h x hx
    have hsub : ∀ i < np, ∃ k < nq, vals (q k) = vals (p i) := by
      intro i hi
      obtain ⟨k, hk, h0, h1⟩ := h i hi
      obtain ⟨c1, l1, e1⟩ := hpos i hi
      obtain ⟨c2, l2, e2⟩ := hqos k hk
      rw [among_point pc qc i k h0 h1, e1] at e2
      simp only [Except.ok.injEq, Prod.mk.injEq] at e2
      exact ⟨k, hk, by rw [e2.2.1]⟩
    have hm := boxOf_mono dims _ _ np nq c d hb hb' hsub
    have htop : ∀ j, flTop rnd (c.hi j) ≤ flTop rnd (d.hi j) := fun j => hN.mono (by linarith [(hm j).2])
    rw [hma] at hx
    rw [hmb]
    obtain ⟨i, j, ⟨hi0, hi1⟩, ⟨hj0, hj1⟩, rfl⟩ := hx
    exact ⟨i, j, ⟨(Int.floor_mono (hm 0).1).trans hi0, hi1.trans_le (min_le_min_right _ (Int.ceil_mono (htop 0)))⟩,
      ⟨(Int.floor_mono (hm 1).1).trans hj0, hj1.trans_le (min_le_min_right _ (Int.ceil_mono (htop 1)))⟩, rfl⟩
  have h1 := key np nq pc qc p q c d a b hpos hqos hb hb' hma hmb h
  exact ⟨a, b, ha, hb2, h1, fun h' => (List.perm_ext_iff_of_nodup na nb).2 fun x =>
    ⟨h1 x, key nq np qc pc q p d c b a hqos hpos hb' hb hmb hma h' x⟩⟩
end rounded

/-! ### Cases -/

/-- A triangle, and the quadrilateral made by one more vertex. -/
example : VerticesAmong 3 (fun k => ([1, 1, 2, 1, 2, 2] : List ℚ).getD k 0) 4 (fun k => ([1, 2, 1, 1, 2, 1, 2, 2] : List ℚ).getD k 0) := by
  intro i hi
  have : i = 0 ∨ i = 1 ∨ i = 2 := by omega
  rcases this with rfl | rfl | rfl
  · exact ⟨1, by norm_num, rfl, rfl⟩
  · exact ⟨2, by norm_num, rfl, rfl⟩
  · exact ⟨3, by norm_num, rfl, rfl⟩

/-- Candidate cells of a triangle, of its vertices in another order, and with one more vertex, on the grid of 3 by 4 nodes. -/
def cellsOf34 (l : List ℚ) : Cxx (List Int) := do
  let o ← (((FindOverlap.new : Overlap ℚ).setSrcGrid ![3, 4] ![0, 0] unit34).setPolygonPoints (l.length / 2) fun k => l.getD k 0).findSrcCellIndices gels2
  return o.srcCellFlatInds

example : cellsOf34 [1 / 2, 1 / 2, 3 / 4, 1 / 2, 1 / 2, 3 / 2] = .ok [0, 1] ∧ cellsOf34 [1 / 2, 3 / 2, 1 / 2, 1 / 2, 3 / 4, 1 / 2] = .ok [0, 1] ∧
    cellsOf34 [1 / 2, 1 / 2, 3 / 2, 1 / 2, 3 / 4, 1 / 2, 1 / 2, 3 / 2] = .ok [0, 1, 4, 5] := by
  refine ⟨?_, ?_, ?_⟩ <;> decide +kernel

end Sg.Props
