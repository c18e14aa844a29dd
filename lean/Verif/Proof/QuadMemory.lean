import Verif.Spec.QuadMemory
import Verif.Proof.QuadLine
import Verif.Proof.Loops
import Verif.Proof.FindPoint
/-
Reads through kept pointers: with all the numbers there the methods compute what they compute on values; otherwise a read fails.
-/
namespace Sg.QuadMemory
open Sg.LinearSolve Sg.Triangulate Sg.QuadIntersect Sg.QuadLine Sg.QuadFlows Sg.FindPoint

set_option linter.unusedSectionVars false
variable {F : Type} [Zero F] [One F] [Add F] [Sub F] [Mul F] [Div F] [Neg F] [LT F] [DecidableLT F]
  [LE F] [DecidableLE F] [DecidableEq F] [NatCast F] [IntCast F] [FOps F]

/-! ### reads -/

theorem load_quad {m : Memory F} {p : Option Ptr} {q : Quad F} (h : quadAt m p = some q) (i : Nat) (hi : i < 4) :
    load m p (i * 2 + 0) = .ok (q (node i)).1 ∧ load m p (i * 2 + 1) = .ok (q (node i)).2 := by
  cases p with
  | none => simp [quadAt] at h
  | some p =>
    simp only [quadAt] at h
    cases hb : m p.block with
    | none => simp [hb] at h
    | some l =>
      simp only [hb] at h
      split at h
      · rename_i hl
        cases h
        have hn : (node i).val = i := Nat.mod_eq_of_lt hi
        have h0 : p.off + (i * 2 + 0) < l.length := by omega
        have h1 : p.off + (i * 2 + 1) < l.length := by omega
        have e0 : p.off + 2 * i = p.off + (i * 2 + 0) := by omega
        have e1 : p.off + 2 * i + 1 = p.off + (i * 2 + 1) := by omega
        constructor
        · simp only [load, hb, vget, hn, e0, List.getElem?_eq_getElem h0, List.getD_eq_getElem?_getD, Option.getD_some]
        · simp only [load, hb, vget, hn, e1, List.getElem?_eq_getElem h1, List.getD_eq_getElem?_getD, Option.getD_some]
      · simp at h

theorem loadPt_quad {m : Memory F} {p : Option Ptr} {q : Quad F} (h : quadAt m p = some q) (i : Nat) (hi : i < 4) :
    loadPt m p i = .ok (q (node i)) := by
  simp only [loadPt, load_quad h i hi, bind, Except.bind, pure, Except.pure]

theorem load_max {m : Memory F} {p : Option Ptr} {i : Nat} {x : F} (h : load m p i = .ok x) :
    ∃ a l, p = some a ∧ m a.block = some l ∧ a.off + i < l.length := by
  cases p with
  | none => simp [load] at h
  | some a =>
    simp only [load] at h
    cases hb : m a.block with
    | none => simp [hb] at h
    | some l =>
      simp only [hb, vget] at h
      refine ⟨a, l, rfl, hb, ?_⟩
      by_contra hc
      rw [List.getElem?_eq_none (by omega)] at h
      simp at h

theorem quadAt_of_load {m : Memory F} {p : Option Ptr} {x : F} (h : load m p 7 = .ok x) : ∃ q, quadAt m p = some q := by
  obtain ⟨a, l, rfl, hb, hl⟩ := load_max h
  simp only [quadAt, hb]
  rw [if_pos (by omega)]
  exact ⟨_, rfl⟩

theorem segAt_of_load {m : Memory F} {p : Option Ptr} {x : F} (h : load m p 3 = .ok x) : ∃ ab, segAt m p = some ab := by
  obtain ⟨a, l, rfl, hb, hl⟩ := load_max h
  simp only [segAt, hb]
  rw [if_pos (by omega)]
  exact ⟨_, rfl⟩

theorem loadPt_inv {m : Memory F} {p : Option Ptr} {i : Nat} {a : Pt F} (h : loadPt m p i = .ok a) :
    ∃ x, load m p (i * 2 + 1) = .ok x := by
  obtain ⟨x, _, h⟩ := bind_ok_inv h
  obtain ⟨y, hy, _⟩ := bind_ok_inv h
  exact ⟨y, hy⟩

theorem quadAt_of_pt {m : Memory F} {p : Option Ptr} {a : Pt F} (h : loadPt m p 3 = .ok a) : ∃ q, quadAt m p = some q := by
  obtain ⟨x, hx⟩ := loadPt_inv h
  exact quadAt_of_load hx

theorem segAt_of_pt {m : Memory F} {p : Option Ptr} {a : Pt F} (h : loadPt m p 1 = .ok a) : ∃ ab, segAt m p = some ab := by
  obtain ⟨x, hx⟩ := loadPt_inv h
  exact segAt_of_load hx

theorem loadPt_seg {m : Memory F} {p : Option Ptr} {a b : Pt F} (h : segAt m p = some (a, b)) :
    loadPt m p 0 = .ok a ∧ loadPt m p 1 = .ok b := by
  cases p with
  | none => simp [segAt] at h
  | some p =>
    simp only [segAt] at h
    cases hb : m p.block with
    | none => simp [hb] at h
    | some l =>
      simp only [hb] at h
      split at h
      · rename_i hl
        cases h
        have e : ∀ k, k < 4 → load m (some p) k = .ok (l.getD (p.off + k) 0) := by
          intro k hk
          have : p.off + k < l.length := by omega
          simp only [load, hb, vget, List.getElem?_eq_getElem this, List.getD_eq_getElem?_getD, Option.getD_some]
        have e0 := e 0 (by omega)
        have e1 := e 1 (by omega)
        have e2 := e 2 (by omega)
        have e3 := e 3 (by omega)
        constructor
        · simp [loadPt, e0, e1, bind, Except.bind, pure, Except.pure]
        · simp [loadPt, e2, e3, bind, Except.bind, pure, Except.pure]
      · simp at h

theorem loadAxis_quad {m : Memory F} {p : Option Ptr} {q : Quad F} (h : quadAt m p = some q) :
    loadAxis m p 0 = .ok (fun i => (q i).1) ∧ loadAxis m p 1 = .ok (fun i => (q i).2) := by
  have h0 := load_quad h 0 (by omega)
  have h1 := load_quad h 1 (by omega)
  have h2 := load_quad h 2 (by omega)
  have h3 := load_quad h 3 (by omega)
  constructor
  · simp only [loadAxis, h0.1, h1.1, h2.1, h3.1, bind, Except.bind, pure, Except.pure]
    congr 1; funext i; fin_cases i <;> rfl
  · simp only [loadAxis, h0.2, h1.2, h2.2, h3.2, bind, Except.bind, pure, Except.pure]
    congr 1; funext i; fin_cases i <;> rfl

theorem quadAt_of_axis {m : Memory F} {p : Option Ptr} {f : Fin 4 → F} (h : loadAxis m p 1 = .ok f) :
    ∃ q, quadAt m p = some q := by
  obtain ⟨_, _, h⟩ := bind_ok_inv h
  obtain ⟨_, _, h⟩ := bind_ok_inv h
  obtain ⟨_, _, h⟩ := bind_ok_inv h
  obtain ⟨x, hx, h⟩ := bind_ok_inv h
  exact quadAt_of_load hx

/-! ### the vector of points -/

def Vec.pushAll (grow : Nat → Nat) (v : Vec F) (l : List F) : Vec F := l.foldl (Vec.push grow) v

theorem push_data (grow : Nat → Nat) (v : Vec F) (a : F) : (v.push grow a).data = v.data ++ [a] := by
  unfold Vec.push; split <;> rfl

theorem pushAll_data (grow : Nat → Nat) (l : List F) : ∀ v : Vec F, (v.pushAll grow l).data = v.data ++ l := by
  induction l with
  | nil => intro v; simp [Vec.pushAll]
  | cons a l ih =>
    intro v
    show ((v.push grow a).pushAll grow l).data = _
    rw [ih, push_data]; simp

theorem pushAll_append (grow : Nat → Nat) (v : Vec F) (l l' : List F) :
    v.pushAll grow (l ++ l') = (v.pushAll grow l).pushAll grow l' := by simp [Vec.pushAll]

theorem flat_append (l l' : List (Pt F)) : flat (l ++ l') = flat l ++ flat l' := by simp [flat]

theorem flat_length (l : List (Pt F)) : (flat l).length = 2 * l.length := by
  induction l with
  | nil => rfl
  | cons a l ih => simp only [flat, List.flatMap_cons, List.length_append, List.length_cons, List.length_nil] at ih ⊢; omega

/-! ### two quadrilaterals -/

def Isect.put (grow : Nat → Nat) (s : Isect F) (sl : Solver F) (l : List (Pt F)) : Isect F :=
  { s with slvr := sl, pts := s.pts.pushAll grow (flat l) }

theorem put_put (grow : Nat → Nat) (s : Isect F) (sl sl' : Solver F) (l l' : List (Pt F)) :
    (s.put grow sl l).put grow sl' l' = s.put grow sl' (l ++ l') := by simp [Isect.put, flat_append, pushAll_append]

theorem put_nil (grow : Nat → Nat) (s : Isect F) : s = s.put grow s.slvr [] := rfl

theorem inCell_mem (g : Gels F) (hg : QuadIntersect.KeepsSizes g) {m : Memory F} {p q : Option Ptr} {a b : Quad F} (hp : quadAt m p = some a)
    (hq : quadAt m q = some b) (s : Solver F) (hs : Ready s) (i : Nat) (hi : i < 4) :
    ∃ s', isPointInCell g m s p i q = .ok (s', inCell g (a (node i)) b) ∧ Ready s' := by
  obtain ⟨s', h1, h2⟩ := inCell_ok g hg s hs (a (node i)) b
  refine ⟨s', ?_, h2⟩
  rw [← h1]
  simp only [isPointInCell, QuadIntersect.isPointInCell, loadPt_quad hp i hi, loadPt_quad hq 0 (by omega),
    loadPt_quad hq 1 (by omega), loadPt_quad hq 2 (by omega), loadPt_quad hq 3 (by omega), bind, Except.bind, pure, Except.pure]
  rfl

theorem nodes_mem (g : Gels F) (hg : QuadIntersect.KeepsSizes g) (grow : Nat → Nat) {m : Memory F} {p q : Option Ptr} {a b : Quad F}
    (hp : quadAt m p = some a) (hq : quadAt m q = some b) (s : Isect F) (hs : Ready s.slvr) :
    ∃ sl, s.collectNodesInsideQuad g grow m p q = .ok (s.put grow sl (nodesIn g a b)) ∧ Ready sl := by
  obtain ⟨s', h1, sl, rfl, h2⟩ := forN_inv
    (fun k t => ∃ sl, t = s.put grow sl ((List.range k).flatMap (nodeHit g a b)) ∧ Ready sl)
    (fun i s => do
      let (sl, b) ← isPointInCell g m s.slvr p i q
      let s := { s with slvr := sl }
      if b then
        forN 2 s fun j s => do
          let x ← load m p (i * 2 + j)
          return { s with pts := s.pts.push grow x }
      else return s) 4 s ⟨s.slvr, rfl, hs⟩ (by
    rintro k t hk ⟨sl, rfl, hr⟩
    obtain ⟨sl', h1, h2⟩ := inCell_mem g hg hp hq sl hr k hk
    refine ⟨_, ?_, sl', rfl, h2⟩
    have e : (s.put grow sl ((List.range k).flatMap (nodeHit g a b))).slvr = sl := rfl
    rw [e, range_succ_flatMap, ← put_put grow s sl]
    have hl := load_quad hp k hk
    simp only [h1, bind, Except.bind, pure, Except.pure, nodeHit]
    split
    · simp only [forN, forFrom, hl.1, hl.2]
      rfl
    · rfl)
  exact ⟨sl, h1, h2⟩

theorem edge_mem (g : Gels F) (hg : QuadIntersect.KeepsSizes g) (grow : Nat → Nat) {m : Memory F} (s : Isect F) {a b : Quad F}
    (hp : quadAt m s.quad1 = some a) (hq : quadAt m s.quad2 = some b) (hs : Ready s.slvr) (i j : Nat) (hi : i < 4) (hj : j < 4) :
    ∃ sl, s.collectEdge g grow m i j = .ok (s.put grow sl (edgeHit g a b i j)) ∧ Ready sl := by
  obtain ⟨s', he, hr, hx⟩ := solve2_ok g hg s.slvr hs (edgeMat (a (node i)) (a (node (i + 1))) (b (node j)) (b (node (j + 1))))
    (triRhs (b (node j)) (a (node i)))
  refine ⟨s', ?_, hr⟩
  have hl : s'.getSolution.length = 2 := by show s'.x.length = 2; rw [hx, (hg _).2]; rfl
  have h2 := vget_two hl
  have hsol : s'.getSolution = (g (args2 (edgeMat (a (node i)) (a (node (i + 1))) (b (node j)) (b (node (j + 1))))
    (triRhs (b (node j)) (a (node i))))).b := hx
  have n1 : node ((i + 1) % 4) = node (i + 1) := by simp [node]
  have n2 : node ((j + 1) % 4) = node (j + 1) := by simp [node]
  unfold Isect.collectEdge edgeHit edgeX
  simp only [loadPt_quad hp i hi, loadPt_quad hp ((i + 1) % 4) (Nat.mod_lt _ (by omega)), loadPt_quad hq j hj,
    loadPt_quad hq ((j + 1) % 4) (Nat.mod_lt _ (by omega)), n1, n2, bind, Except.bind, pure, Except.pure, he, h2.1, h2.2]
  rw [hsol]
  split
  · rfl
  · split <;> rfl

theorem edges_mem (g : Gels F) (hg : QuadIntersect.KeepsSizes g) (grow : Nat → Nat) {m : Memory F} (s : Isect F) {a b : Quad F}
    (hp : quadAt m s.quad1 = some a) (hq : quadAt m s.quad2 = some b) (hs : Ready s.slvr) :
    ∃ sl, (forN 4 s fun i s => forN 4 s fun j s => s.collectEdge g grow m i j) = .ok (s.put grow sl (crossings g a b)) ∧
      Ready sl := by
  obtain ⟨s', h1, sl, rfl, h2⟩ := forN_inv (fun k t => ∃ sl, t = s.put grow sl
      ((List.range k).flatMap fun i => (List.range 4).flatMap (edgeHit g a b i)) ∧ Ready sl)
    (fun i s => forN 4 s fun j s => s.collectEdge g grow m i j) 4 s ⟨s.slvr, rfl, hs⟩ (by
    rintro i t hi ⟨sl, rfl, hr⟩
    generalize hl : ((List.range i).flatMap fun i => (List.range 4).flatMap (edgeHit g a b i)) = l
    obtain ⟨t', h1, sl', rfl, h2⟩ := forN_inv (fun k t => ∃ sl', t = (s.put grow sl l).put grow sl'
        ((List.range k).flatMap (edgeHit g a b i)) ∧ Ready sl')
      (fun j s => s.collectEdge g grow m i j) 4 (s.put grow sl l) ⟨sl, rfl, hr⟩ (by
        rintro j t hj ⟨sl', rfl, hr'⟩
        obtain ⟨sl'', h1, h2⟩ := edge_mem g hg grow ((s.put grow sl l).put grow sl' ((List.range j).flatMap (edgeHit g a b i)))
          hp hq hr' i j hi hj
        refine ⟨_, h1, sl'', ?_, h2⟩
        rw [put_put grow (s.put grow sl l) sl', range_succ_flatMap])
    refine ⟨_, h1, sl', ?_, h2⟩
    rw [put_put, range_succ_flatMap _ i, hl])
  exact ⟨sl, h1, h2⟩

theorem collect_mem (g : Gels F) (hg : QuadIntersect.KeepsSizes g) (grow : Nat → Nat) {m : Memory F} (s : Isect F) {a b : Quad F}
    (hp : quadAt m s.quad1 = some a) (hq : quadAt m s.quad2 = some b) (hs : Ready s.slvr) :
    ∃ sl, s.collectIntersectPoints g grow m =
      .ok (s.put grow sl (collected g a b), (s.put grow sl (collected g a b)).pts.found) ∧ Ready sl := by
  obtain ⟨sl1, e1, r1⟩ := nodes_mem g hg grow hp hq s hs
  obtain ⟨sl2, e2, r2⟩ := nodes_mem g hg grow hq hp (s.put grow sl1 (nodesIn g a b)) r1
  obtain ⟨sl3, e3, r3⟩ := edges_mem g hg grow ((s.put grow sl1 (nodesIn g a b)).put grow sl2 (nodesIn g b a)) hp hq r2
  refine ⟨sl3, ?_, r3⟩
  have e2' : (s.put grow sl1 (nodesIn g a b)).collectNodesInsideQuad g grow m (s.put grow sl1 (nodesIn g a b)).quad2
    (s.put grow sl1 (nodesIn g a b)).quad1 = _ := e2
  unfold Isect.collectIntersectPoints
  simp only [e1, e2', e3, bind, Except.bind, pure, Except.pure]
  simp only [put_put, collected, List.append_assoc]

theorem nodes_inv (g : Gels F) (grow : Nat → Nat) {m : Memory F} {p q : Option Ptr} {s s' : Isect F}
    (h : s.collectNodesInsideQuad g grow m p q = .ok s') :
    (∃ a, quadAt m p = some a) ∧ s'.quad1 = s.quad1 ∧ s'.quad2 = s.quad2 := by
  have := forN_inv_ok (fun k t => (∀ j < k, ∃ a, loadPt m p j = .ok a) ∧ t.quad1 = s.quad1 ∧ t.quad2 = s.quad2)
    _ 4 s s' ⟨by simp, rfl, rfl⟩ (by
    rintro k t t' hk ⟨h1, h2, h3⟩ h
    obtain ⟨r, hr, h⟩ := bind_ok_inv h
    obtain ⟨pt, hpt, _⟩ := bind_ok_inv hr
    refine ⟨fun j hj => ?_, ?_⟩
    · rcases Nat.lt_succ_iff_lt_or_eq.mp hj with hj | rfl
      · exact h1 j hj
      · exact ⟨pt, hpt⟩
    · dsimp only at h
      split at h
      · refine forN_inv_ok (fun _ u => u.quad1 = s.quad1 ∧ u.quad2 = s.quad2) _ 2 _ t' ⟨h2, h3⟩ ?_ h
        rintro k u u' _ hu h
        obtain ⟨x, _, h⟩ := bind_ok_inv h
        cases h
        exact hu
      · cases h; exact ⟨h2, h3⟩) h
  obtain ⟨h1, h2⟩ := this
  obtain ⟨pt, hpt⟩ := h1 3 (by omega)
  exact ⟨quadAt_of_pt hpt, h2⟩

/-- A call that is defined had all the numbers. -/
theorem collect_inv (g : Gels F) (grow : Nat → Nat) {m : Memory F} {s : Isect F} {r : Isect F × Found}
    (h : s.collectIntersectPoints g grow m = .ok r) : (∃ a, quadAt m s.quad1 = some a) ∧ ∃ b, quadAt m s.quad2 = some b := by
  obtain ⟨s1, e1, h⟩ := bind_ok_inv h
  obtain ⟨s2, e2, h⟩ := bind_ok_inv h
  obtain ⟨ha, _, hq⟩ := nodes_inv g grow e1
  obtain ⟨hb, _⟩ := nodes_inv g grow e2
  rw [hq] at hb
  exact ⟨ha, hb⟩

theorem boxes_mem {m : Memory F} (s : Isect F) {a b : Quad F} (hp : quadAt m s.quad1 = some a) (hq : quadAt m s.quad2 = some b) :
    s.checkIfBoxesOverlap m = .ok (boxesOverlap a b) := by
  have h1 := loadAxis_quad hp
  have h2 := loadAxis_quad hq
  simp only [Isect.checkIfBoxesOverlap, forN, forFrom, h1.1, h1.2, h2.1, h2.2, bind, Except.bind, pure, Except.pure, boxesOverlap,
    Bool.true_and]

theorem boxes_inv {m : Memory F} {s : Isect F} {b : Bool} (h : s.checkIfBoxesOverlap m = .ok b) :
    (∃ a, quadAt m s.quad1 = some a) ∧ ∃ b, quadAt m s.quad2 = some b := by
  have := forN_inv_ok (fun k _ => 2 ≤ k → (∃ a, quadAt m s.quad1 = some a) ∧ ∃ b, quadAt m s.quad2 = some b)
    _ 2 true b (by omega) (by
    rintro k t t' hk _ h h2
    obtain rfl : k = 1 := by omega
    obtain ⟨x, hx, h⟩ := bind_ok_inv h
    obtain ⟨y, hy, h⟩ := bind_ok_inv h
    exact ⟨quadAt_of_axis hx, quadAt_of_axis hy⟩) h
  exact this le_rfl

theorem pairPoints_eq (g : Gels F) (hg : QuadIntersect.KeepsSizes g) (a b : Quad F) : pairPoints g a b = collected g a b := by
  obtain ⟨sl, e, _⟩ := QuadIntersect.collect_ok g hg ((QuadIntersect.Isect.new : QuadIntersect.Isect F).setQuadPoints a b)
    ready_new a b rfl rfl
  simp only [pairPoints, e]
  rfl

end Sg.QuadMemory
