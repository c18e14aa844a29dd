import Verif.Model.QuadIntersect
import Verif.Proof.LinearSolve
/-
The methods of the intersector as functions of their arguments: the state of the solver plays no role.
-/
namespace Sg.QuadIntersect
open Sg.LinearSolve Sg.Triangulate

/-! ### any arithmetic -/
section generic
set_option linter.unusedSectionVars false
variable {F : Type}

/-- A library that leaves the sizes of the arrays alone. -/
def KeepsSizes (g : Gels F) : Prop := ∀ r : GelsArgs F, (g r).a.length = r.a.length ∧ (g r).b.length = r.b.length

/-- A solver object for two equations. -/
structure Ready (s : Solver F) : Prop where
  wf : WF s
  nrow : s.nrow = 2
  ncol : s.ncol = 2
  lwork : s.lwork = 4

theorem ready_new [Zero F] : Ready (LinearSolve.new 2 2 : Solver F) := ⟨wf_new 2 2, rfl, rfl, rfl⟩

/-- What the library is asked. -/
def args2 (a b : Nat → F) : GelsArgs F := ⟨'T', 2, 2, 1, [a 0, a 1, a 2, a 3], 2, [b 0, b 1], 2, 4⟩

theorem solve2_ok (g : Gels F) (hg : KeepsSizes g) (s : Solver F) (hs : Ready s) (a b : Nat → F) :
    ∃ s', solve2 g s a b = .ok (s', (g (args2 a b)).info) ∧ Ready s' ∧ s'.x = (g (args2 a b)).b := by
  obtain ⟨mat, matOri, bb, x, lwork, nrow, ncol⟩ := s
  obtain ⟨⟨h1, h2, h3, h4⟩, h5, h6, h7⟩ := hs
  dsimp only at h1 h2 h3 h4 h5 h6 h7
  subst h5 h6 h7
  have hx : x.drop 2 = [] := by apply List.drop_eq_nil_of_le; omega
  have hargs : Solver.gelsArgs (⟨(List.range (2 * 2)).map a, (List.range (2 * 2)).map a, (List.range 2).map b,
      (List.range 2).map b, 4, 2, 2⟩ : Solver F) = args2 a b := rfl
  refine ⟨⟨(g (args2 a b)).a, (List.range (2 * 2)).map a, (List.range 2).map b, (g (args2 a b)).b, 4, 2, 2⟩, ?_, ?_, rfl⟩
  · unfold solve2
    rw [setMatrix_ok _ ⟨h1, h2, h3, h4⟩]
    simp only [bind, Except.bind]
    rw [setRhs_ok _ ⟨by simp, by simp, h3, h4⟩]
    dsimp only
    rw [hx, List.append_nil]
    unfold Solver.solve
    simp only [bind, Except.bind, pure, Except.pure]
    rw [vget_ok (by simp), vget_ok (by simp)]
    dsimp only
    rw [hargs]
  · refine ⟨⟨?_, ?_, ?_, ?_⟩, rfl, rfl, rfl⟩
    · exact (hg _).1
    · simp
    · simp
    · exact (hg _).2

variable [Zero F] [One F] [Add F] [Sub F] [Mul F] [Div F] [Neg F] [LT F] [DecidableLT F] [LE F] [DecidableLE F] [NatCast F]

/-- The test of a point and a triangle as a function. -/
def inTri (g : Gels F) (pt n0 n1 n2 : Pt F) : Bool :=
  let o := g (args2 (triMat n0 n1 n2) (triRhs pt n0))
  if 0 < o.info then false
  else decide (-tol < o.b.getD 0 0) && decide (o.b.getD 0 0 ≤ 1 + tol) && decide (-tol < o.b.getD 1 0) &&
    decide (o.b.getD 0 0 + o.b.getD 1 0 ≤ 1 + tol)

/-- The test of a point and a cell as a function. -/
def inCell (g : Gels F) (pt : Pt F) (q : Quad F) : Bool := inTri g pt (q 0) (q 1) (q 3) || inTri g pt (q 2) (q 3) (q 1)

/-- The crossing of two edges as a function. -/
def edgeX (g : Gels F) (a0 a1 b0 b1 : Pt F) : Option (Pt F) :=
  let o := g (args2 (edgeMat a0 a1 b0 b1) (triRhs b0 a0))
  if 0 < o.info then none
  else if tol < o.b.getD 0 0 ∧ o.b.getD 0 0 ≤ 1 - tol ∧ tol < o.b.getD 1 0 ∧ o.b.getD 1 0 ≤ 1 - tol then
    some (a0.1 + o.b.getD 0 0 * (a1.1 - a0.1), a0.2 + o.b.getD 0 0 * (a1.2 - a0.2))
  else none

theorem vget_two {l : List F} (h : l.length = 2) : vget l 0 = .ok (l.getD 0 0) ∧ vget l 1 = .ok (l.getD 1 0) := by
  match l, h with
  | [a, b], _ => exact ⟨rfl, rfl⟩

theorem inTri_ok (g : Gels F) (hg : KeepsSizes g) (s : Solver F) (hs : Ready s) (pt n0 n1 n2 : Pt F) :
    ∃ s', checkIfPointIsInsideTriangle g s pt n0 n1 n2 = .ok (s', inTri g pt n0 n1 n2) ∧ Ready s' := by
  obtain ⟨s', he, hr, hx⟩ := solve2_ok g hg s hs (triMat n0 n1 n2) (triRhs pt n0)
  refine ⟨s', ?_, hr⟩
  have hl : s'.getSolution.length = 2 := by show s'.x.length = 2; rw [hx, (hg _).2]; rfl
  have h2 := vget_two hl
  have hsol : s'.getSolution = (g (args2 (triMat n0 n1 n2) (triRhs pt n0))).b := hx
  unfold checkIfPointIsInsideTriangle inTri
  rw [he]
  simp only [bind, Except.bind, pure, Except.pure, h2.1, h2.2]
  rw [hsol]
  split <;> rfl

theorem inCell_ok (g : Gels F) (hg : KeepsSizes g) (s : Solver F) (hs : Ready s) (pt : Pt F) (q : Quad F) :
    ∃ s', isPointInCell g s pt q = .ok (s', inCell g pt q) ∧ Ready s' := by
  obtain ⟨s1, h1, r1⟩ := inTri_ok g hg s hs pt (q 0) (q 1) (q 3)
  obtain ⟨s2, h2, r2⟩ := inTri_ok g hg s1 r1 pt (q 2) (q 3) (q 1)
  simp only [isPointInCell, inCell, h1, bind, Except.bind, pure, Except.pure]
  cases inTri g pt (q 0) (q 1) (q 3) with
  | true => exact ⟨s1, rfl, r1⟩
  | false => exact ⟨s2, by simpa using h2, r2⟩

theorem edgeX_ok (g : Gels F) (hg : KeepsSizes g) (s : Isect F) (hs : Ready s.slvr) (a0 a1 b0 b1 : Pt F) :
    ∃ sl, s.collectEdge g a0 a1 b0 b1 =
      .ok ({ s with slvr := sl, pts := s.pts ++ (edgeX g a0 a1 b0 b1).toList }, edgeX g a0 a1 b0 b1) ∧ Ready sl := by
  obtain ⟨s', he, hr, hx⟩ := solve2_ok g hg s.slvr hs (edgeMat a0 a1 b0 b1) (triRhs b0 a0)
  refine ⟨s', ?_, hr⟩
  have hl : s'.getSolution.length = 2 := by show s'.x.length = 2; rw [hx, (hg _).2]; rfl
  have h2 := vget_two hl
  have hsol : s'.getSolution = (g (args2 (edgeMat a0 a1 b0 b1) (triRhs b0 a0))).b := hx
  unfold Isect.collectEdge edgeX
  rw [he]
  simp only [bind, Except.bind, pure, Except.pure, h2.1, h2.2]
  rw [hsol]
  split
  · simp
  · split <;> simp [Isect.addPoint]

/-- Node `i` of one quadrilateral, if found in the other. -/
def nodeHit (g : Gels F) (nodes quad : Quad F) (i : Nat) : List (Pt F) :=
  if inCell g (nodes (node i)) quad then [nodes (node i)] else []

/-- Crossing of edges `i` and `j`, if any. -/
def edgeHit (g : Gels F) (q1 q2 : Quad F) (i j : Nat) : List (Pt F) :=
  (edgeX g (q1 (node i)) (q1 (node (i + 1))) (q2 (node j)) (q2 (node (j + 1)))).toList

/-- The nodes of one quadrilateral found in the other. -/
def nodesIn (g : Gels F) (nodes quad : Quad F) : List (Pt F) := (List.range 4).flatMap (nodeHit g nodes quad)

/-- The crossings of edges. -/
def crossings (g : Gels F) (q1 q2 : Quad F) : List (Pt F) :=
  (List.range 4).flatMap fun i => (List.range 4).flatMap (edgeHit g q1 q2 i)

/-- All the points collected for a pair. -/
def collected (g : Gels F) (q1 q2 : Quad F) : List (Pt F) := nodesIn g q1 q2 ++ nodesIn g q2 q1 ++ crossings g q1 q2

theorem range_succ_flatMap {α : Type} (f : Nat → List α) (k : Nat) :
    (List.range (k + 1)).flatMap f = (List.range k).flatMap f ++ f k := by
  rw [List.range_succ, List.flatMap_append]; simp

/-- The state with another solver and more points. -/
def Isect.put (s : Isect F) (sl : Solver F) (l : List (Pt F)) : Isect F := { s with slvr := sl, pts := s.pts ++ l }

theorem put_put (s : Isect F) (sl sl' : Solver F) (l l' : List (Pt F)) :
    (s.put sl l).put sl' l' = s.put sl' (l ++ l') := by simp [Isect.put]

theorem nodesIn_ok (g : Gels F) (hg : KeepsSizes g) (s : Isect F) (hs : Ready s.slvr) (nodes quad : Quad F) :
    ∃ sl, s.collectNodesInsideQuad g nodes quad = .ok (s.put sl (nodesIn g nodes quad)) ∧ Ready sl := by
  obtain ⟨s', h1, sl, rfl, h2⟩ := forN_inv
    (fun k t => ∃ sl, t = s.put sl ((List.range k).flatMap (nodeHit g nodes quad)) ∧ Ready sl)
    (fun i s => do
      let (sl, b) ← isPointInCell g s.slvr (nodes (node i)) quad
      let s := { s with slvr := sl }
      return if b then s.addPoint (nodes (node i)) else s) 4 s ⟨s.slvr, by simp [Isect.put], hs⟩ (by
    rintro k t hk ⟨sl, rfl, hr⟩
    obtain ⟨sl', h1, h2⟩ := inCell_ok g hg sl hr (nodes (node k)) quad
    refine ⟨_, ?_, sl', rfl, h2⟩
    have e : (s.put sl ((List.range k).flatMap (nodeHit g nodes quad))).slvr = sl := rfl
    rw [e]
    simp only [h1, bind, Except.bind, pure, Except.pure, range_succ_flatMap, nodeHit]
    split <;> simp [Isect.addPoint, Isect.put])
  exact ⟨sl, h1, h2⟩

theorem crossings_ok (g : Gels F) (hg : KeepsSizes g) (s : Isect F) (hs : Ready s.slvr) (q1 q2 : Quad F) :
    ∃ sl, (forN 4 s fun i s => forN 4 s fun j s => do
      let (s, _) ← s.collectEdge g (q1 (node i)) (q1 (node (i + 1))) (q2 (node j)) (q2 (node (j + 1)))
      return s) = .ok (s.put sl (crossings g q1 q2)) ∧ Ready sl := by
  obtain ⟨s', h1, sl, rfl, h2⟩ := forN_inv (fun k t => ∃ sl, t = s.put sl
      ((List.range k).flatMap fun i => (List.range 4).flatMap (edgeHit g q1 q2 i)) ∧ Ready sl)
    (fun i s => forN 4 s fun j s => do
      let (s, _) ← s.collectEdge g (q1 (node i)) (q1 (node (i + 1))) (q2 (node j)) (q2 (node (j + 1)))
      return s) 4 s ⟨s.slvr, by simp [Isect.put], hs⟩ (by
    rintro i t hi ⟨sl, rfl, hr⟩
    generalize hl : ((List.range i).flatMap fun i => (List.range 4).flatMap (edgeHit g q1 q2 i)) = l
    obtain ⟨t', h1, sl', rfl, h2⟩ := forN_inv (fun k t => ∃ sl', t = (s.put sl l).put sl'
        ((List.range k).flatMap (edgeHit g q1 q2 i)) ∧ Ready sl')
      (fun j s => do
        let (s, _) ← s.collectEdge g (q1 (node i)) (q1 (node (i + 1))) (q2 (node j)) (q2 (node (j + 1)))
        return s) 4 (s.put sl l) ⟨sl, by simp [Isect.put], hr⟩ (by
        rintro j t hj ⟨sl', rfl, hr'⟩
        obtain ⟨sl'', h1, h2⟩ := edgeX_ok g hg ((s.put sl l).put sl' ((List.range j).flatMap (edgeHit g q1 q2 i))) hr'
          (q1 (node i)) (q1 (node (i + 1))) (q2 (node j)) (q2 (node (j + 1)))
        refine ⟨_, ?_, sl'', rfl, h2⟩
        simp only [h1, bind, Except.bind, pure, Except.pure, range_succ_flatMap]
        simp [Isect.put, edgeHit])
    refine ⟨_, h1, sl', ?_, h2⟩
    rw [put_put, range_succ_flatMap _ i, hl])
  exact ⟨sl, h1, h2⟩

/-- A call adds the points of the pair to those collected before. -/
theorem collect_ok (g : Gels F) (hg : KeepsSizes g) (s : Isect F) (hs : Ready s.slvr) (q1 q2 : Quad F)
    (h1 : s.quad1 = some q1) (h2 : s.quad2 = some q2) :
    ∃ sl, s.collectIntersectPoints g = .ok (s.put sl (collected g q1 q2), s.pts ++ collected g q1 q2) ∧ Ready sl := by
  obtain ⟨sl1, e1, r1⟩ := nodesIn_ok g hg s hs q1 q2
  obtain ⟨sl2, e2, r2⟩ := nodesIn_ok g hg (s.put sl1 (nodesIn g q1 q2)) r1 q2 q1
  obtain ⟨sl3, e3, r3⟩ := crossings_ok g hg ((s.put sl1 (nodesIn g q1 q2)).put sl2 (nodesIn g q2 q1)) r2 q1 q2
  refine ⟨sl3, ?_, r3⟩
  unfold Isect.collectIntersectPoints
  rw [h1, h2]
  simp only [e1, e2, bind, Except.bind, pure, Except.pure] at e3 ⊢
  rw [e3]
  simp [collected, List.append_assoc, Isect.put]

end generic

end Sg.QuadIntersect
